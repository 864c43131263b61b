import Verif.Lemmas.Read
/-! Helper lemmas: what an accepted read looks like; whitespace and columns. -/
namespace Arinc
open Py Spec
variable [PyUnicode]

/-- Everything known about an accepted read. -/
structure Accepted (r : Record) (line k : Str) (d : Definition) (l : Layout) : Prop where
  isRec : IsRecord (strip line)
  res : resolve line = some k
  lookup : registry.lookup k = some d
  facts : EntryFacts k d
  contOK : ∀ i, d.contIdx = some i → isAlnum (col (strip line) i) = true
  select : (d.branch (r.enter line k d).primary).select line = .ok l
  ne : l ≠ []
  mem : l ∈ d.layouts
  read : r.read line =
    ⟨.ok true, { r.enter line k d with fields := l.map (FieldSpec.field line) }, []⟩

omit [PyUnicode] in
theorem branch_layouts {d : Definition} {p : Bool} {l : Layout} (h : l ∈ (d.branch p).layouts) :
    l ∈ d.layouts := by
  unfold Definition.branch at h
  unfold Definition.layouts
  cases p
  · exact List.mem_append_right _ h
  · exact List.mem_append_left _ h

theorem accepted {r : Record} {line : Str} (h : (r.read line).res = .ok true) :
    ∃ k d l, Accepted r line k d l := by
  rcases read_cases r line with ⟨_, h'⟩ | ⟨_, _, h'⟩ | ⟨hrec, k, d, hres, hd, hf, h'⟩
  · rw [h'] at h; cases h
  · rw [h'] at h; cases h
  · rw [h'] at h
    simp only [Record.readAs] at h h'
    by_cases hc : d.contIdx.isSome = true ∧ isAlnum (r.enter line k d).continuation = false
    · rw [if_pos hc] at h; cases h
    · rw [if_neg hc] at h h'
      unfold Record.finish at h h'
      cases hs : (d.branch (r.enter line k d).primary).select line with
      | error e => simp only [hs] at h; cases h
      | ok l =>
        simp only [hs] at h h'
        have hne : l ≠ [] := by
          intro h0; subst h0; simp at h
        have hmem : l ∈ d.layouts := by
          rcases select_mem hs with hm | hm
          · exact branch_layouts hm
          · exact absurd hm hne
        have hl : (!l.isEmpty) = true := by cases l <;> simp_all
        rw [hl] at h'
        refine ⟨k, d, l, hrec, hres, hd, hf, ?_, hs, hne, hmem, h'⟩
        intro i hi
        have : (r.enter line k d).continuation = col (strip line) i := by
          simp [Record.enter, hi]
        rw [this, hi] at hc
        simpa using hc

omit [PyUnicode] in
theorem pick_append {t post : Str} {cs : List Nat} (h : ∀ c ∈ cs, c < t.length) :
    pick (t ++ post) cs = pick t cs := by
  induction cs with
  | nil => rfl
  | cons c cs ih =>
    have e : ∀ s : Str, pick s (c :: cs) = col s c ++ pick s cs := fun s => by simp [pick]
    rw [e, e, ih (fun c hc => h c (by simp [hc])), col_append (h c (by simp))]

omit [PyUnicode] in
theorem line_eq {line : Str} (hn : NoLeadingSpace line) :
    ∃ post, line = strip line ++ post ∧ AllSpace post := eq_strip_append hn

omit [PyUnicode] in
theorem columns_lt {sl : Slice} (h : sl.inBounds = true) : ∀ c ∈ sl.columns, c < 132 := by
  intro c hc
  cases sl with
  | «at» i => simp only [Slice.inBounds, decide_eq_true_eq] at h; simp [Slice.columns] at hc; omega
  | range lo hi =>
    simp only [Slice.inBounds, Bool.and_eq_true, decide_eq_true_eq] at h
    simp only [Slice.columns, List.mem_range'_1] at hc
    omega
  | pair i j =>
    simp only [Slice.inBounds, Bool.and_eq_true, decide_eq_true_eq] at h
    simp [Slice.columns] at hc
    omega

theorem pick_strip {line : Str} (hrec : IsRecord (strip line)) (hn : NoLeadingSpace line)
    {cs : List Nat} (h : ∀ c ∈ cs, c < 132) : pick line cs = pick (strip line) cs := by
  obtain ⟨post, e, _⟩ := line_eq hn
  conv => lhs; rw [e]
  exact pick_append (by rw [hrec.length]; exact h)

theorem field_strip {line : Str} (hrec : IsRecord (strip line)) (hn : NoLeadingSpace line)
    {l : Layout} (hl : Layout.inBounds l = true) :
    l.map (FieldSpec.field line) = l.map (FieldSpec.field (strip line)) := by
  apply List.map_congr_left
  intro s hs
  simp only [FieldSpec.field, Field.mk.injEq, true_and, and_true]
  exact pick_strip hrec hn (columns_lt (List.all_eq_true.1 hl s hs))

omit [PyUnicode] in
theorem col_eq_pick (t : Str) (i : Nat) : col t i = pick t [i] := by simp [pick]

omit [PyUnicode] in
theorem cols_eq_pick {t : Str} {lo hi : Nat} (h : hi ≤ t.length) (h' : lo ≤ hi) :
    cols t lo hi = pick t (List.range' lo (hi - lo)) := by
  rw [pick_range' (by omega), cols]

theorem resolve_strip {line : Str} (hrec : IsRecord (strip line)) (hn : NoLeadingSpace line) :
    resolve line = resolve (strip line) := by
  have ht := length_line hrec
  have h1 : cols line 4 6 = cols (strip line) 4 6 := by
    rw [cols_eq_pick (by omega) (by omega), cols_eq_pick (by rw [hrec.length]; omega) (by omega)]
    exact pick_strip hrec hn (by intro c hc; simp at hc; omega)
  have h2 : ∀ i, i < 132 → col line i = col (strip line) i := by
    intro i hi
    rw [col_eq_pick, col_eq_pick]
    exact pick_strip hrec hn (by intro c hc; simp at hc; omega)
  unfold resolve
  rw [h1, h2 4 (by omega), h2 12 (by omega)]

theorem select_strip {line : Str} (hrec : IsRecord (strip line)) (hn : NoLeadingSpace line)
    {b : Branch} (hb : b.selOK = true) : b.select line = b.select (strip line) := by
  cases b with
  | always l => rfl
  | onApp sel cases other =>
    simp only [Branch.select]
    rw [pick_strip hrec hn (columns_lt hb)]

omit [PyUnicode] in
theorem branch_selOK {k : Str} {d : Definition} (hf : EntryFacts k d) (p : Bool) :
    (d.branch p).selOK = true := by
  unfold Definition.branch; cases p
  · exact hf.selC
  · exact hf.selP

/-- Reading a line without leading whitespace is reading its stripped text. -/
theorem read_strip {line : Str} (hn : NoLeadingSpace line) (r : Record) :
    r.read line = r.read (strip line) := by
  rw [read_eq, read_eq]
  have hv : validate line = validate (strip line) := by
    unfold validate; rw [strip_strip]
  rw [← hv]
  by_cases h : validate line = true
  · have hrec := validate_iff_isRecord.1 h
    rw [if_pos h, if_pos h, resolve_strip hrec hn, strip_strip]
    cases hr : resolve (strip line) with
    | none => rfl
    | some k =>
      obtain ⟨d, hd⟩ := lookup_of_resolve hr
      simp only [hd]
      have hf := entry_facts hd
      have he : r.enter line k d = r.enter (strip line) k d := by
        simp [Record.enter, strip_strip]
      have hfin : (r.enter (strip line) k d).finish d line =
          (r.enter (strip line) k d).finish d (strip line) := by
        unfold Record.finish
        rw [select_strip hrec hn (branch_selOK hf _)]
        cases hs : (d.branch (r.enter (strip line) k d).primary).select (strip line) with
        | error e => rfl
        | ok l =>
          simp only
          have hl : Layout.inBounds l = true := by
            rcases select_mem hs with hm | hm
            · exact (hf.layouts l (branch_layouts hm)).1
            · subst hm; rfl
          rw [field_strip hrec hn hl]
      simp only [Record.readAs, he, hfin]
  · rw [if_neg h, if_neg h]

/-- Whitespace after a line changes nothing. -/
theorem read_append_space (line ws : Str) (hw : AllSpace ws) (r : Record) :
    r.read (line ++ ws) = r.read line := by
  rw [read_eq, read_eq]
  have hstrip := strip_append_space (s := line) hw
  have hv : validate (line ++ ws) = validate line := by
    unfold validate; rw [hstrip]
  rw [hv]
  by_cases h : validate line = true
  · have hrec := validate_iff_isRecord.1 h
    have ht := length_line hrec
    have hpick : ∀ cs : List Nat, (∀ c ∈ cs, c < 132) → pick (line ++ ws) cs = pick line cs :=
      fun cs hcs => pick_append (fun c hc => by have := hcs c hc; omega)
    have hres : resolve (line ++ ws) = resolve line := by
      have h1 : cols (line ++ ws) 4 6 = cols line 4 6 := cols_append (by omega)
      have h2 : ∀ i, i < 132 → col (line ++ ws) i = col line i := fun i hi => col_append (by omega)
      unfold resolve
      rw [h1, h2 4 (by omega), h2 12 (by omega)]
    rw [if_pos h, if_pos h, hres, hstrip]
    cases hr : resolve line with
    | none => rfl
    | some k =>
      obtain ⟨d, hd⟩ := lookup_of_resolve hr
      simp only [hd]
      have hf := entry_facts hd
      have he : r.enter (line ++ ws) k d = r.enter line k d := by
        simp [Record.enter, hstrip]
      have hsel : ∀ b : Branch, b.selOK = true → b.select (line ++ ws) = b.select line := by
        intro b hb
        cases b with
        | always l => rfl
        | onApp sel cases other =>
          simp only [Branch.select]
          rw [hpick _ (columns_lt hb)]
      have hfin : (r.enter line k d).finish d (line ++ ws) = (r.enter line k d).finish d line := by
        unfold Record.finish
        rw [hsel _ (branch_selOK hf _)]
        cases hs : (d.branch (r.enter line k d).primary).select line with
        | error e => rfl
        | ok l =>
          simp only
          have hl : Layout.inBounds l = true := by
            rcases select_mem hs with hm | hm
            · exact (hf.layouts l (branch_layouts hm)).1
            · subst hm; rfl
          have : l.map (FieldSpec.field (line ++ ws)) = l.map (FieldSpec.field line) := by
            apply List.map_congr_left
            intro s hs
            simp only [FieldSpec.field, Field.mk.injEq, true_and, and_true]
            exact hpick _ (columns_lt (List.all_eq_true.1 hl s hs))
          rw [this]
      simp only [Record.readAs, he, hfin]
  · rw [if_neg h, if_neg h]

end Arinc
