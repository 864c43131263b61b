import Verif.Lemmas.Layout
/-! Helper lemmas: `read` on a well-shaped line of a given section. -/
namespace Arinc
open Py Spec

/-- finite check used by C12 -/
def nameOK (p : Str × Definition) : Bool :=
  match p.2.contIdx with
  | some _ => decide (p.2.name = recordName p.1)
  | none => true

theorem names_ok : registry.all nameOK = true := by decide +kernel

theorem name_of {k : Str} {d : Definition} (h : registry.lookup k = some d) {i : Nat}
    (hi : contColumn k = some i) : d.name = recordName k := by
  have := List.all_eq_true.1 names_ok _ (lookup_mem h)
  rw [← (entry_facts h).cont] at hi
  simpa [nameOK, hi] using this

theorem resolves_functional {line k k' : Str} (h : Resolves line k) (h' : Resolves line k') :
    k = k' := by
  have h1 := resolve_iff.2 h
  have h2 := resolve_iff.2 h'
  rw [h1] at h2
  exact Option.some.inj h2

variable [PyUnicode]

/-- `read` on a well-shaped line dispatched to section `k` -/
theorem read_section {line t k : Str} (hp : Padded line t) (ht : IsRecord t) (hk : Resolves line k)
    (r : Record) : ∃ d, registry.lookup k = some d ∧ EntryFacts k d ∧ strip line = t ∧
      132 ≤ line.length ∧ r.read line = r.readAs line k d := by
  have hs := isRecord_strip hp ht
  have hrec : IsRecord (strip line) := by rw [hs]; exact ht
  rcases read_cases r line with ⟨hw, _⟩ | ⟨_, hn, _⟩ | ⟨_, k', d, hres, hd, hf, h'⟩
  · exact absurd ⟨t, hp, ht⟩ hw
  · rw [resolve_iff.2 hk] at hn; cases hn
  · rw [resolve_iff.2 hk] at hres
    cases hres
    exact ⟨d, hd, hf, hs, length_line hrec, h'⟩

omit [PyUnicode] in
/-- the object after entering section `k` with a continuation column -/
theorem enter_cont {r : Record} {line k : Str} {d : Definition} {i : Nat} (hi : d.contIdx = some i) :
    (r.enter line k d).continuation = col (strip line) i := by
  simp [Record.enter, hi]

omit [PyUnicode] in
theorem enter_primary {r : Record} {line k : Str} {d : Definition} {i : Nat}
    (hi : d.contIdx = some i) :
    (r.enter line k d).primary = true ↔ PrimaryNo (col (strip line) i) := by
  unfold Record.primary PrimaryNo
  rw [enter_cont hi]
  simp [Record.enter]

omit [PyUnicode] in
theorem enter_primary_none {r : Record} {line k : Str} {d : Definition} (hi : d.contIdx = none) :
    (r.enter line k d).primary = true ↔ PrimaryNo r.continuation := by
  unfold Record.primary PrimaryNo
  simp [Record.enter, hi]

/-- three cases for a section with a continuation column -/
theorem read_cont {line t k : Str} (hp : Padded line t) (ht : IsRecord t) (hk : Resolves line k)
    {i : Nat} (hi : contColumn k = some i) (r : Record) :
    ∃ d, registry.lookup k = some d ∧ EntryFacts k d ∧ d.contIdx = some i ∧ strip line = t ∧
      132 ≤ line.length ∧
      ((isAlnum (col t i) = false ∧ r.read line =
          ⟨.ok false, r.enter line k d, contDiag ((recordName k).getD []) (col t i) t⟩) ∨
       (isAlnum (col t i) = true ∧ r.read line = (r.enter line k d).finish d line)) := by
  obtain ⟨d, hd, hf, hs, hl, h⟩ := read_section hp ht hk r
  have hc : d.contIdx = some i := by rw [hf.cont, hi]
  refine ⟨d, hd, hf, hc, hs, hl, ?_⟩
  have he : (r.enter line k d).continuation = col t i := by rw [enter_cont hc, hs]
  have hr : (r.enter line k d).raw = t := hs
  unfold Record.readAs at h
  simp only [he, hr, hc, name_of hd hi, Option.isSome_some, true_and] at h
  by_cases ha : isAlnum (col t i) = false
  · left; rw [if_pos ha] at h; exact ⟨ha, h⟩
  · right; rw [if_neg ha] at h; exact ⟨by simpa using ha, h⟩

theorem read_noCont {line t k : Str} (hp : Padded line t) (ht : IsRecord t) (hk : Resolves line k)
    (hi : contColumn k = none) (r : Record) :
    ∃ d, registry.lookup k = some d ∧ EntryFacts k d ∧ d.contIdx = none ∧ strip line = t ∧
      132 ≤ line.length ∧ r.read line = (r.enter line k d).finish d line := by
  obtain ⟨d, hd, hf, hs, hl, h⟩ := read_section hp ht hk r
  have hc : d.contIdx = none := by rw [hf.cont, hi]
  refine ⟨d, hd, hf, hc, hs, hl, ?_⟩
  unfold Record.readAs at h
  simpa [hc] using h

omit [PyUnicode] in
theorem appColumns_cont {k : Str} {i : Nat} (hi : contColumn k = some i) : appColumns k = [i + 1] := by
  have hk : k ≠ py!"EU" := by
    rintro rfl
    have h0 : contColumn (py!"EU") = none := by decide
    rw [h0] at hi; cases hi
  simp [appColumns, hk, hi]

omit [PyUnicode] in
/-- a non-primary record with a continuation column, by application type -/
theorem finish_cont {line k : Str} {d : Definition} (hd : registry.lookup k = some d)
    {i : Nat} (hi : d.contIdx = some i) (r : Record)
    (hnp : ¬ PrimaryNo (col (strip line) i)) :
    (col line (i + 1) ∈ declaredApps k ∧
      ((r.enter line k d).finish d line).res = .ok true) ∨
    (col line (i + 1) ∉ declaredApps k ∧
      ((k ∈ raisers ∧ (r.enter line k d).finish d line =
          ⟨.error .valueError, r.enter line k d, []⟩) ∨
       (k = py!"HC" ∧ ((r.enter line k d).finish d line).res = .ok true) ∨
       (k ∉ raisers ∧ k ≠ py!"HC" ∧ (r.enter line k d).finish d line =
          ⟨.ok false, { r.enter line k d with fields := [] }, []⟩))) := by
  have hp : (r.enter line k d).primary = false := by
    rw [← Bool.not_eq_true, enter_primary hi]; exact hnp
  have key : ∀ l, l ≠ [] → d.onCont.select line = .ok l →
      ((r.enter line k d).finish d line).res = .ok true := by
    intro l hl hs
    unfold Record.finish Definition.branch
    simp only [hp, Bool.false_eq_true, if_false, hs]
    cases l with
    | nil => exact absurd rfl hl
    | cons _ _ => rfl
  rcases select_cont hd hi line with ⟨h1, l, hs, hl⟩ | ⟨h1, h2⟩
  · exact .inl ⟨h1, key l hl hs⟩
  · refine .inr ⟨h1, ?_⟩
    rcases h2 with ⟨hr, hs⟩ | ⟨hhc, l, hs, hl⟩ | ⟨hr, hhc, hs⟩
    · left; refine ⟨hr, ?_⟩
      unfold Record.finish Definition.branch
      simp only [hp, Bool.false_eq_true, if_false, hs]
    · right; left; exact ⟨hhc, key l hl hs⟩
    · right; right; refine ⟨hr, hhc, ?_⟩
      unfold Record.finish Definition.branch
      simp only [hp, Bool.false_eq_true, if_false, hs]
      rfl

omit [PyUnicode] in
theorem finish_primary {line k : Str} {d : Definition} (hd : registry.lookup k = some d)
    {i : Nat} (hi : d.contIdx = some i) (r : Record) (hnp : PrimaryNo (col (strip line) i)) :
    ((r.enter line k d).finish d line).res = .ok true := by
  have hp := (enter_primary (r := r) (line := line) (k := k) hi).2 hnp
  obtain ⟨l, _, hl, hs⟩ := select_primary hd hi line
  unfold Record.finish Definition.branch
  simp only [hp, if_true, hs]
  cases l with
  | nil => exact absurd rfl hl
  | cons _ _ => rfl

omit [PyUnicode] in
theorem finish_plain {line k : Str} {d : Definition} (hd : registry.lookup k = some d)
    (hi : d.contIdx = none) (hk : k ≠ py!"EU") (r : Record) :
    ((r.enter line k d).finish d line).res = .ok true := by
  obtain ⟨_, l, hl, hs⟩ := select_plain hd hi hk
  unfold Record.finish
  simp only [hs]
  cases l with
  | nil => exact absurd rfl hl
  | cons _ _ => rfl

omit [PyUnicode] in
theorem finish_EU {line : Str} {d : Definition} (hd : registry.lookup (py!"EU") = some d)
    (hl : 132 ≤ line.length) (r : Record) :
    (cols line 15 17 ∈ euTypes (r.enter line (py!"EU") d).primary ∧
      ((r.enter line (py!"EU") d).finish d line).res = .ok true) ∨
    (cols line 15 17 ∉ euTypes (r.enter line (py!"EU") d).primary ∧
      (r.enter line (py!"EU") d).finish d line =
        ⟨.error .valueError, r.enter line (py!"EU") d, []⟩) := by
  rcases select_EU hd (r.enter line (py!"EU") d).primary hl with ⟨h, l, hs, hne⟩ | ⟨h, hs⟩
  · left; refine ⟨h, ?_⟩
    unfold Record.finish
    simp only [hs]
    cases l with
    | nil => exact absurd rfl hne
    | cons _ _ => rfl
  · right; refine ⟨h, ?_⟩
    unfold Record.finish
    simp only [hs]

omit [PyUnicode] in
theorem finish_out (r : Record) (d : Definition) (line : Str) : (r.finish d line).out = [] := by
  unfold Record.finish; split <;> rfl

omit [PyUnicode] in
theorem finish_congr {r r' : Record} {d : Definition} {line : Str}
    (h : (d.branch r.primary).select line = (d.branch r'.primary).select line) :
    (r.finish d line).res = (r'.finish d line).res ∧
    ((r.finish d line).res = .ok true →
      (r.finish d line).obj.fields = (r'.finish d line).obj.fields) := by
  unfold Record.finish
  rw [h]
  cases (d.branch r'.primary).select line with
  | error e => exact ⟨rfl, fun h => nomatch h⟩
  | ok l => exact ⟨rfl, fun _ => rfl⟩

omit [PyUnicode] in
theorem finish_obj {r : Record} {d : Definition} {line : Str} :
    (r.finish d line).obj.ident = r.ident ∧ (r.finish d line).obj.raw = r.raw ∧
    (r.finish d line).obj.continuation = r.continuation ∧
    (r.finish d line).obj.definition = r.definition := by
  unfold Record.finish
  split <;> exact ⟨rfl, rfl, rfl, rfl⟩

theorem isRecord_of {t : Str} (h1 : t.length = 132) (h2 : t.head? = some 83 ∨ t.head? = some 84)
    (h3 : (t.drop 123).all PyUnicode.numeric = true) : IsRecord t :=
  ⟨h1, h2, List.all_eq_true.1 h3⟩

omit [PyUnicode] in
theorem padded_self (t : Str) : Padded t t :=
  ⟨[], [], by simp, by simp [AllSpace], by simp [AllSpace]⟩

end Arinc
