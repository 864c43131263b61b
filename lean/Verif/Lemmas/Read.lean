import Verif.Lemmas.Str
import Verif.Model.Record
/-!
Helper lemmas: a flat description of `Record.read` (`read_eq`) from which the property
theorems follow, and the finite checks over the registry it needs.
-/
namespace Arinc
open Py Spec

/-- the columns a slice expression reads -/
def Slice.columns : Slice → List Nat
  | .at i => [i]
  | .range lo hi => List.range' lo (hi - lo)
  | .pair i j => [i, j]

/-- a slice expression that is non-empty and stays inside 132 columns -/
def Slice.inBounds : Slice → Bool
  | .at i => i < 132
  | .range lo hi => lo < hi && hi ≤ 132
  | .pair i j => i < 132 && j < 132

def Layout.inBounds (l : Layout) : Bool := l.all (fun s => s.slice.inBounds)

/-- layouts a branch can return -/
def Branch.layouts : Branch → List Layout
  | .always l => [l]
  | .onApp _ cases (.layout l) => cases.map Prod.snd ++ [l]
  | .onApp _ cases _ => cases.map Prod.snd

def Definition.layouts (d : Definition) : List Layout := d.onPrimary.layouts ++ d.onCont.layouts

/-- the selector of a branch, if any, stays inside the record -/
def Branch.selOK : Branch → Bool
  | .always _ => true
  | .onApp sel _ _ => sel.inBounds

/-- everything `read_eq` needs to know about a registry entry -/
def entryOK (p : Str × Definition) : Bool :=
  decide (p.2.contIdx = contColumn p.1) &&
  (match p.2.contIdx with
   | none => p.2.appIdx.isNone
   | some k => decide (k < 131) && p.2.name.isSome && decide (p.2.appIdx = some (k + 1)) &&
      decide (p.2.appType = some (.at (k + 1))) && p.2.continuations.isSome) &&
  p.2.layouts.all (fun l => Layout.inBounds l && !l.isEmpty) &&
  p.2.onPrimary.selOK && p.2.onCont.selOK

theorem registry_ok : registry.all entryOK = true := by decide +kernel

theorem registry_keys : registry.map Prod.fst = supported := by decide +kernel

theorem lookup_mem {α : Type} {l : List (Str × α)} {k : Str} {v : α} (h : l.lookup k = some v) :
    (k, v) ∈ l := by
  induction l with
  | nil => simp at h
  | cons p l ih =>
    obtain ⟨k', v'⟩ := p
    rw [List.lookup_cons] at h
    by_cases hk : k = k'
    · subst hk; simp at h; subst h; simp
    · have : (k == k') = false := by simpa using hk
      rw [this] at h
      exact List.mem_cons_of_mem _ (ih h)

theorem lookup_isSome_iff {α : Type} {l : List (Str × α)} {k : Str} :
    (l.lookup k).isSome = true ↔ k ∈ l.map Prod.fst := by
  induction l with
  | nil => simp
  | cons p l ih =>
    obtain ⟨k', v'⟩ := p
    rw [List.lookup_cons]
    by_cases hk : k = k'
    · subst hk; simp
    · have : (k == k') = false := by simpa using hk
      rw [this]
      simp only [List.map_cons, List.mem_cons, ih]
      constructor
      · exact Or.inr
      · rintro (h | h)
        · exact absurd h hk
        · exact h

theorem lookup_none_iff {α : Type} {l : List (Str × α)} {k : Str} :
    l.lookup k = none ↔ k ∉ l.map Prod.fst := by
  rw [← lookup_isSome_iff]
  cases l.lookup k <;> simp

theorem inRegistry_iff {k : Str} : inRegistry k = true ↔ k ∈ supported := by
  rw [inRegistry, lookup_isSome_iff, registry_keys]

theorem entry_ok {k : Str} {d : Definition} (h : registry.lookup k = some d) :
    entryOK (k, d) = true := List.all_eq_true.1 registry_ok _ (lookup_mem h)

structure EntryFacts (k : Str) (d : Definition) : Prop where
  cont : d.contIdx = contColumn k
  noCont : d.contIdx = none → d.appIdx = none
  withCont : ∀ i, d.contIdx = some i → i < 131 ∧ (∃ nm, d.name = some nm) ∧
    d.appIdx = some (i + 1) ∧ d.appType = some (.at (i + 1)) ∧ ∃ cs, d.continuations = some cs
  layouts : ∀ l ∈ d.layouts, Layout.inBounds l = true ∧ l ≠ []
  selP : d.onPrimary.selOK = true
  selC : d.onCont.selOK = true

theorem entry_facts {k : Str} {d : Definition} (h : registry.lookup k = some d) : EntryFacts k d := by
  have h := entry_ok h
  simp only [entryOK, Bool.and_eq_true, decide_eq_true_eq] at h
  obtain ⟨⟨⟨⟨h1, h2⟩, h3⟩, h4⟩, h5⟩ := h
  refine ⟨h1, ?_, ?_, ?_, h4, h5⟩
  · intro hn; rw [hn] at h2; simpa using h2
  · intro i hi
    rw [hi] at h2
    simp only [Bool.and_eq_true, decide_eq_true_eq, Option.isSome_iff_exists] at h2
    obtain ⟨⟨⟨⟨a, b⟩, c⟩, d⟩, e⟩ := h2
    exact ⟨a, b, c, d, e⟩
  · intro l hl
    have := List.all_eq_true.1 h3 l hl
    simp only [Bool.and_eq_true, Bool.not_eq_true', List.isEmpty_eq_false_iff] at this
    exact this

/-! ### evaluating layouts on a line of at least 132 characters -/

theorem pick_range' {t : Str} {lo n : Nat} (h : lo + n ≤ t.length) :
    pick t (List.range' lo n) = (t.drop lo).take n := by
  induction n generalizing lo with
  | zero => simp [pick]
  | succ n ih =>
    rw [List.range'_succ]
    have hlt : lo < t.length := by omega
    have e : pick t (lo :: List.range' (lo + 1) n) = col t lo ++ pick t (List.range' (lo + 1) n) := by
      simp [pick]
    rw [e, ih (by omega), col_lt hlt, List.drop_eq_getElem_cons hlt, List.take_succ_cons]
    rfl

theorem eval_ok {sl : Slice} {t : Str} (hb : sl.inBounds = true) (ht : 132 ≤ t.length) :
    sl.eval t = .ok (pick t sl.columns) := by
  cases sl with
  | «at» i =>
    simp only [Slice.inBounds, decide_eq_true_eq] at hb
    simp [Slice.eval, index_lt (show i < t.length by omega), Slice.columns, pick]
  | range lo hi =>
    simp only [Slice.inBounds, Bool.and_eq_true, decide_eq_true_eq] at hb
    simp only [Slice.eval, Slice.columns]
    rw [pick_range' (by omega), slice_eq_cols, cols]
  | pair i j =>
    simp only [Slice.inBounds, Bool.and_eq_true, decide_eq_true_eq] at hb
    simp only [Slice.eval]
    rw [index_lt (show i < t.length by omega), index_lt (show j < t.length by omega)]
    simp [Slice.columns, pick, bind, Except.bind]

/-- the field a spec yields on a line -/
def FieldSpec.field (line : Str) (s : FieldSpec) : Field := ⟨s.name, pick line s.slice.columns, s.dec⟩

theorem readLayout_ok {l : Layout} {line : Str} (hb : Layout.inBounds l = true) (ht : 132 ≤ line.length) :
    readLayout line l = .ok (l.map (FieldSpec.field line)) := by
  induction l with
  | nil => rfl
  | cons s l ih =>
    simp only [Layout.inBounds, List.all_cons, Bool.and_eq_true] at hb
    have ih := ih (by simpa [Layout.inBounds] using hb.2)
    simp only [readLayout]
    rw [eval_ok hb.1 ht, ih]
    rfl

/-- which layout a branch selects -/
def Branch.select (line : Str) : Branch → Except Exc Layout
  | .always l => .ok l
  | .onApp sel cases other =>
    match cases.lookup (pick line sel.columns) with
    | some l => .ok l
    | none =>
      match other with
      | .empty => .ok []
      | .raise => .error .valueError
      | .layout l => .ok l

theorem select_mem {b : Branch} {line : Str} {l : Layout} (h : b.select line = .ok l) :
    l ∈ b.layouts ∨ l = [] := by
  cases b with
  | always l' => simp [Branch.select] at h; left; simp [Branch.layouts, h]
  | onApp sel cases other =>
    simp only [Branch.select] at h
    cases hc : cases.lookup (pick line sel.columns) with
    | some l' =>
      rw [hc] at h
      simp only [Except.ok.injEq] at h
      subst h
      have hm : l' ∈ cases.map Prod.snd := List.mem_map.2 ⟨_, lookup_mem hc, rfl⟩
      left
      cases other <;> simp_all [Branch.layouts]
    | none =>
      rw [hc] at h
      cases other with
      | empty => simp at h; right; exact h
      | raise => simp at h
      | layout l' => simp at h; left; simp [Branch.layouts, h]

theorem run_eq {b : Branch} {line : Str} (hs : b.selOK = true)
    (hl : ∀ l ∈ b.layouts, Layout.inBounds l = true) (ht : 132 ≤ line.length) :
    b.run line = (b.select line).map (fun l => l.map (FieldSpec.field line)) := by
  cases hsel : b.select line with
  | error e =>
    cases b with
    | always l => simp [Branch.select] at hsel
    | onApp sel cases other =>
      simp only [Branch.select] at hsel
      simp only [Branch.run, eval_ok hs ht, bind, Except.bind]
      cases hc : cases.lookup (pick line sel.columns) with
      | some l' => rw [hc] at hsel; simp at hsel
      | none =>
        rw [hc] at hsel
        cases other <;> simp_all [Except.map]
  | ok l =>
    have hb : Layout.inBounds l = true := by
      rcases select_mem hsel with h | h
      · exact hl l h
      · subst h; rfl
    have hr := readLayout_ok hb ht
    simp only [Except.map]
    cases b with
    | always l' => simp [Branch.select] at hsel; subst hsel; exact hr
    | onApp sel cases other =>
      simp only [Branch.select] at hsel
      simp only [Branch.run, eval_ok hs ht, bind, Except.bind]
      cases hc : cases.lookup (pick line sel.columns) with
      | some l' =>
        rw [hc] at hsel; simp at hsel; subst hsel; exact hr
      | none =>
        rw [hc] at hsel
        cases other with
        | empty => simp at hsel; subst hsel; rfl
        | raise => simp at hsel
        | layout l' => simp at hsel; subst hsel; exact hr

/-- the branch taken -/
def Definition.branch (d : Definition) (primary : Bool) : Branch :=
  if primary then d.onPrimary else d.onCont

theorem defRead_eq {k : Str} {d : Definition} (h : EntryFacts k d) {line : Str} (ht : 132 ≤ line.length)
    (primary : Bool) :
    d.read line primary =
      ((d.branch primary).select line).map (fun l => l.map (FieldSpec.field line)) := by
  unfold Definition.read Definition.branch
  cases primary with
  | true =>
    exact run_eq h.selP (fun l hl => (h.layouts l (by simp [Definition.layouts, hl])).1) ht
  | false =>
    exact run_eq h.selC (fun l hl => (h.layouts l (by simp [Definition.layouts, hl])).1) ht

/-! ### shape -/
section
variable [PyUnicode]

theorem isRecord_head {t : Str} (h : IsRecord t) : ∀ c, t.head? = some c → isSpace c = false := by
  intro c hc
  rcases h.first with h | h <;> rw [h] at hc <;> cases hc <;> rfl

theorem isRecord_last {t : Str} (h : IsRecord t) : ∀ c, t.getLast? = some c → isSpace c = false := by
  intro c hc
  apply PyUnicode.numeric_not_space
  apply h.tail
  have hne : t.drop 123 ≠ [] := by
    intro h0
    have := congrArg List.length h0
    simp [h.length] at this
  have : (t.drop 123).getLast? = some c := by
    rw [List.getLast?_drop, if_neg (by rw [h.length]; omega)]; exact hc
  exact List.mem_of_getLast? this

theorem isRecord_strip {line t : Str} (hp : Padded line t) (h : IsRecord t) : strip line = t :=
  strip_of_padded hp (isRecord_head h) (isRecord_last h)

theorem validate_iff_isRecord {line : Str} : validate line = true ↔ IsRecord (strip line) := by
  generalize hs : strip line = t
  simp only [validate, hs]
  constructor
  · intro h
    by_cases h1 : startsWithEither t 83 84 = false
    · simp [h1] at h
    · by_cases h2 : t.length ≠ 132
      · simp [h1, h2] at h
      · by_cases h3 : isNumeric (lastN t 9) = false
        · simp [h1, h2, h3] at h
        · simp only [ne_eq, Decidable.not_not] at h2
          refine ⟨h2, ?_, ?_⟩
          · cases t with
            | nil => simp at h2
            | cons c t =>
              simp [startsWithEither] at h1
              simp only [List.head?_cons, Option.some.injEq]
              by_cases hc : c = 83
              · exact Or.inl hc
              · exact Or.inr (h1 hc)
          · intro c hc
            simp only [isNumeric, Bool.not_eq_false, Bool.and_eq_true, List.all_eq_true] at h3
            rw [lastN_eq h2] at h3
            exact h3.2 c hc
  · intro h
    have h1 : startsWithEither t 83 84 = true := by
      cases t with
      | nil => have := h.length; simp at this
      | cons c t =>
        have := h.first
        simp only [List.head?_cons, Option.some.injEq] at this
        simp [startsWithEither, this]
    have h3 : isNumeric (lastN t 9) = true := by
      rw [lastN_eq h.length]
      simp only [isNumeric, Bool.and_eq_true, List.all_eq_true]
      refine ⟨?_, fun c hc => h.tail c hc⟩
      simp only [Bool.not_eq_true', List.isEmpty_eq_false_iff]
      intro h0
      have := congrArg List.length h0
      simp [h.length] at this
    simp [h1, h.length, h3]

theorem validate_iff {line : Str} : validate line = true ↔ WellShaped line := by
  rw [validate_iff_isRecord]
  constructor
  · intro h; exact ⟨_, padded_strip line, h⟩
  · rintro ⟨t, hp, h⟩; rw [isRecord_strip hp h]; exact h

theorem length_line {line : Str} (h : IsRecord (strip line)) : 132 ≤ line.length := by
  have := strip_length_le line
  rw [h.length] at this; exact this

/-! ### flat form of `read` -/

/-- the section a line is dispatched to -/
def resolve (line : Str) : Option Str :=
  if cols line 4 6 ∈ supported then some (cols line 4 6)
  else if col line 4 ++ col line 12 ∈ supported then some (col line 4 ++ col line 12)
  else none

omit [PyUnicode] in
theorem resolve_iff {line k : Str} : resolve line = some k ↔ Resolves line k := by
  unfold resolve
  constructor
  · intro h
    split at h
    · next h1 => cases h; exact .byPair h1
    · next h1 =>
      split at h
      · next h2 => cases h; exact .bySplit h1 h2
      · cases h
  · intro h
    cases h with
    | byPair h => simp [h]
    | bySplit h1 h2 => simp [h1, h2]

/-- record after the continuation number was looked at -/
def Record.enter (r : Record) (line k : Str) (d : Definition) : Record :=
  { r with
    raw := strip line
    ident := k
    definition := some d
    continuation := match d.contIdx with
      | some i => col (strip line) i
      | none => r.continuation }

/-- the three diagnostic lines -/
def contDiag (nm c raw : Str) : List Event :=
  [.line (py!"Unsupported " ++ nm ++ py!" Continuation Record Number: \"" ++ c ++ py!"\""),
   .line (py!"Valid Continuation Record Numbers are 0, 1, 2 (through 9) A, B, C (through Z)"),
   .line (py!"Record: " ++ raw)]

/-- last part of `read`, once the layout is known -/
def Record.finish (r : Record) (d : Definition) (line : Str) : ReadOut :=
  match (d.branch r.primary).select line with
  | .error e => ⟨.error e, r, []⟩
  | .ok l => ⟨.ok (!l.isEmpty), { r with fields := l.map (FieldSpec.field line) }, []⟩

/-- flat description of `read` on a well-shaped line dispatched to section `k` -/
def Record.readAs (r : Record) (line k : Str) (d : Definition) : ReadOut :=
  let r' := r.enter line k d
  if d.contIdx.isSome = true ∧ isAlnum r'.continuation = false then
    ⟨.ok false, r', contDiag (d.name.getD []) r'.continuation r'.raw⟩
  else r'.finish d line

omit [PyUnicode] in
theorem readFields_eq {k : Str} {d : Definition} (hf : EntryFacts k d) (r : Record) {line : Str}
    (ht : 132 ≤ line.length) : r.readFields d line = r.finish d line := by
  unfold Record.readFields Record.finish
  rw [defRead_eq hf ht]
  cases hs : (d.branch r.primary).select line with
  | error e => rfl
  | ok l =>
    simp only [Except.map]
    cases l <;> simp

omit [PyUnicode] in
theorem checkApplication_eq {k : Str} {d : Definition} (hf : EntryFacts k d) (r : Record) {line : Str}
    {i : Nat} (hi : d.contIdx = some i)
    (hraw : r.raw.length = 132) (ht : 132 ≤ line.length) :
    r.checkApplication d line = r.finish d line := by
  obtain ⟨hlt, ⟨nm, hnm⟩, happ, htype, ⟨cs, hcs⟩⟩ := hf.withCont i hi
  unfold Record.checkApplication
  split
  · rw [happ, htype, hcs, hnm]
    have : (Slice.at (i + 1)).eval r.raw = .ok (col r.raw (i + 1)) :=
      index_lt (by omega)
    simp only [this, truthy]
    simp
    exact readFields_eq hf r ht
  · exact readFields_eq hf r ht

theorem readDefinition_eq {k : Str} {d : Definition} (r : Record) {line : Str}
    (hd : registry.lookup k = some d) (hrec : IsRecord (strip line)) :
    Record.readDefinition { r with raw := strip line, ident := k } line = r.readAs line k d := by
  have hf := entry_facts hd
  have ht := length_line hrec
  unfold Record.readDefinition Record.readWith
  simp only [hd]
  cases hc : d.contIdx with
  | none =>
    simp only [Record.readAs, Record.enter, hc]
    simp
    rw [readFields_eq hf _ ht]
  | some i =>
    obtain ⟨hlt, ⟨nm, hnm⟩, _⟩ := hf.withCont i hc
    simp only [Record.readAs, Record.enter, hc]
    rw [index_lt (by rw [hrec.length]; omega)]
    simp only [hnm]
    by_cases ha : isAlnum (col (strip line) i) = false
    · simp [ha, contDiag]
    · simp only [ha]
      simp
      rw [checkApplication_eq hf _ hc hrec.length ht]

/-- Flat form of `Record.read`. -/
theorem read_eq (r : Record) (line : Str) :
    r.read line =
      if validate line = true then
        match resolve line with
        | none => ⟨.ok false, { r with raw := strip line }, []⟩
        | some k =>
          match registry.lookup k with
          | none => ⟨.error .attributeError, r, []⟩
          | some d => r.readAs line k d
      else ⟨.ok false, r, []⟩ := by
  by_cases hv : validate line = true
  · have hrec := validate_iff_isRecord.1 hv
    have ht := length_line hrec
    rw [if_pos hv]
    unfold Record.read
    rw [if_neg (by simp [hv])]
    have e : (Slice.pair 4 12).eval line = .ok (col line 4 ++ col line 12) := by
      simp only [Slice.eval]
      rw [index_lt (show 4 < line.length by omega), index_lt (show 12 < line.length by omega)]
      rfl
    simp only [e, slice_eq_cols, inRegistry_iff, resolve]
    by_cases h1 : cols line 4 6 ∈ supported
    · rw [if_pos h1, if_pos h1]
      have := inRegistry_iff.2 h1
      rw [inRegistry, Option.isSome_iff_exists] at this
      obtain ⟨d, hd⟩ := this
      simp only [hd]
      exact readDefinition_eq r hd hrec
    · rw [if_neg h1, if_neg h1]
      by_cases h2 : col line 4 ++ col line 12 ∈ supported
      · rw [if_pos h2, if_pos h2]
        have := inRegistry_iff.2 h2
        rw [inRegistry, Option.isSome_iff_exists] at this
        obtain ⟨d, hd⟩ := this
        simp only [hd]
        exact readDefinition_eq r hd hrec
      · rw [if_neg h2, if_neg h2]
  · rw [if_neg hv]
    unfold Record.read
    simp [hv]

omit [PyUnicode] in
theorem lookup_of_resolve {line k : Str} (h : resolve line = some k) :
    ∃ d, registry.lookup k = some d := by
  have hk : k ∈ supported := by
    rw [resolve_iff] at h
    cases h with
    | byPair h => exact h
    | bySplit _ h => exact h
  have := inRegistry_iff.2 hk
  rwa [inRegistry, Option.isSome_iff_exists] at this

/-- `read` is one of three things. -/
theorem read_cases (r : Record) (line : Str) :
    (¬ WellShaped line ∧ r.read line = ⟨.ok false, r, []⟩) ∨
    (IsRecord (strip line) ∧ resolve line = none ∧
      r.read line = ⟨.ok false, { r with raw := strip line }, []⟩) ∨
    (IsRecord (strip line) ∧ ∃ k d, resolve line = some k ∧ registry.lookup k = some d ∧
      EntryFacts k d ∧ r.read line = r.readAs line k d) := by
  rw [read_eq]
  by_cases hv : validate line = true
  · right
    have hrec := validate_iff_isRecord.1 hv
    rw [if_pos hv]
    cases hr : resolve line with
    | none => left; exact ⟨hrec, rfl, rfl⟩
    | some k =>
      right
      obtain ⟨d, hd⟩ := lookup_of_resolve hr
      exact ⟨hrec, k, d, rfl, hd, entry_facts hd, by simp [hd]⟩
  · left
    exact ⟨fun h => hv (validate_iff.2 h), if_neg hv⟩

end
end Arinc
