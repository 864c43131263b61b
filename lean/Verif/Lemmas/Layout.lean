import Verif.Lemmas.Select
/-! Helper lemmas: the layout as a function of section, primary and application type. -/
namespace Arinc
open Py Spec

/-- layout chosen for section `k` -/
def layoutOf (k : Str) (p : Bool) (app : Str) : Layout :=
  match registry.lookup k with
  | none => []
  | some d =>
    match d.branch p with
    | .always l => l
    | .onApp _ cases other =>
      match cases.lookup app with
      | some l => l
      | none => match other with
        | .layout l => l
        | _ => []

/-- a slice is one run of columns or columns 5 and 13 -/
def sliceForm (s : Slice) : Bool :=
  match s with
  | .pair i j => i == 4 && j == 12
  | _ => true

def selIs (k : Str) : Branch → Bool
  | .always _ => true
  | .onApp sel _ _ => decide (sel.columns = appColumns k)

def isEnvelope (l : Layout) : Bool :=
  decide (l.head? = some ⟨py!"Record Type", .at 0, .f002⟩) && decide (3 ≤ l.length) &&
  decide (l.drop (l.length - 2) =
    [⟨py!"File Record No", .range 123 128, .ident 31⟩, ⟨py!"Cycle Date", .range 128 132, .f032⟩])

def layoutsOK (p : Str × Definition) : Bool :=
  selIs p.1 p.2.onPrimary && selIs p.1 p.2.onCont &&
  p.2.layouts.all (fun l => l.all (fun s => sliceForm s.slice) && isEnvelope l)

theorem layouts_ok : registry.all layoutsOK = true := by decide +kernel

theorem layouts_of {k : Str} {d : Definition} (h : registry.lookup k = some d) :
    layoutsOK (k, d) = true := List.all_eq_true.1 layouts_ok _ (lookup_mem h)

theorem appColumns_lt (k : Str) : ∀ c ∈ appColumns k, c < 132 := by
  intro c hc
  have hb : ∀ i, contColumn k = some i → i < 131 := by
    intro i hi
    unfold contColumn at hi
    repeat' split at hi
    all_goals first | (cases hi; done) | (cases hi; omega)
  unfold appColumns at hc
  split at hc
  · simp at hc; omega
  · split at hc
    · next i hi => have := hb i hi; simp at hc; omega
    · cases hc

theorem layout_columns {k : Str} {d : Definition} (h : registry.lookup k = some d) {l : Layout}
    (hl : l ∈ d.layouts) {s : FieldSpec} (hs : s ∈ l) :
    s.slice.columns ≠ [] ∧ (∀ c ∈ s.slice.columns, c < 132) ∧
      ((∃ lo n, s.slice.columns = List.range' lo n) ∨ s.slice.columns = [4, 12]) := by
  have hb := List.all_eq_true.1 ((entry_facts h).layouts l hl).1 s hs
  have hk := layouts_of h
  simp only [layoutsOK, Bool.and_eq_true, List.all_eq_true] at hk
  have hf := (hk.2 l hl).1 s hs
  refine ⟨?_, columns_lt hb, ?_⟩
  · intro h0
    cases hsl : s.slice with
    | «at» i => rw [hsl] at h0; simp [Slice.columns] at h0
    | pair i j => rw [hsl] at h0; simp [Slice.columns] at h0
    | range lo hi =>
      rw [hsl] at h0 hb
      simp only [Slice.inBounds, Bool.and_eq_true, decide_eq_true_eq] at hb
      have := congrArg List.length h0
      simp only [Slice.columns, List.length_range', List.length_nil] at this
      omega
  · cases hsl : s.slice with
    | «at» i => left; exact ⟨i, 1, rfl⟩
    | range lo hi => left; exact ⟨lo, hi - lo, rfl⟩
    | pair i j =>
      right
      rw [hsl] at hf
      simp only [sliceForm, Bool.and_eq_true, beq_iff_eq] at hf
      simp [Slice.columns, hf]

theorem layoutOf_mem {k : Str} {p : Bool} {a : Str} (hne : layoutOf k p a ≠ []) :
    ∃ d, registry.lookup k = some d ∧ layoutOf k p a ∈ d.layouts := by
  cases hd : registry.lookup k with
  | none => exact absurd (by simp [layoutOf, hd]) hne
  | some d =>
    refine ⟨d, rfl, ?_⟩
    apply branch_layouts (p := p)
    unfold layoutOf at hne ⊢
    simp only [hd] at hne ⊢
    cases hb : d.branch p with
    | always l => simp [Branch.layouts]
    | onApp sel cases other =>
      simp only [hb] at hne
      cases hc : cases.lookup a with
      | some l =>
        have hm : l ∈ cases.map Prod.snd := List.mem_map.2 ⟨_, lookup_mem hc, rfl⟩
        cases other <;> simp_all [Branch.layouts]
      | none =>
        cases other with
        | empty => simp [hc] at hne
        | raise => simp [hc] at hne
        | layout l => simp [Branch.layouts, hc]

theorem layoutOf_columns {k : Str} {p : Bool} {a : Str} {s : FieldSpec} (hs : s ∈ layoutOf k p a) :
    s.slice.columns ≠ [] ∧ (∀ c ∈ s.slice.columns, c < 132) ∧
      ((∃ lo n, s.slice.columns = List.range' lo n) ∨ s.slice.columns = [4, 12]) := by
  obtain ⟨d, hd, hm⟩ := layoutOf_mem (List.ne_nil_of_mem hs)
  exact layout_columns hd hm hs

theorem select_layoutOf {k : Str} {d : Definition} (h : registry.lookup k = some d) {p : Bool}
    {line : Str} {l : Layout} (hs : (d.branch p).select line = .ok l) :
    l = layoutOf k p (pick line (appColumns k)) := by
  have hk := layouts_of h
  simp only [layoutsOK, Bool.and_eq_true] at hk
  have hsel : selIs k (d.branch p) = true := by
    unfold Definition.branch; cases p
    · exact hk.1.2
    · exact hk.1.1
  unfold layoutOf
  simp only [h]
  cases hb : d.branch p with
  | always l' => rw [hb] at hs; simp [Branch.select] at hs; exact hs.symm
  | onApp sel cases other =>
    rw [hb] at hs hsel
    simp only [selIs, decide_eq_true_eq] at hsel
    simp only [Branch.select, hsel] at hs
    cases hc : cases.lookup (pick line (appColumns k)) with
    | some l' => simp only [hc] at hs ⊢; cases hs; rfl
    | none =>
      simp only [hc] at hs ⊢
      cases other with
      | empty => cases hs; rfl
      | raise => cases hs
      | layout l' => cases hs; rfl

theorem primary_fields (r : Record) (fs : List Field) :
    ({ r with fields := fs } : Record).primary = r.primary := rfl

theorem envelope {k : Str} {d : Definition} (h : registry.lookup k = some d) {l : Layout}
    (hl : l ∈ d.layouts) : ∃ mid, l = ⟨py!"Record Type", .at 0, .f002⟩ :: mid ++
      [⟨py!"File Record No", .range 123 128, .ident 31⟩, ⟨py!"Cycle Date", .range 128 132, .f032⟩] := by
  have hk := layouts_of h
  simp only [layoutsOK, Bool.and_eq_true, List.all_eq_true] at hk
  have he := (hk.2 l hl).2
  simp only [isEnvelope, Bool.and_eq_true, decide_eq_true_eq] at he
  obtain ⟨⟨h1, h2⟩, h3⟩ := he
  cases l with
  | nil => cases h1
  | cons a t =>
    simp only [List.head?_cons, Option.some.injEq] at h1
    subst h1
    refine ⟨t.take (t.length - 2), ?_⟩
    simp only [List.length_cons] at h2 h3
    have : t.length + 1 - 2 = (t.length - 2) + 1 := by omega
    rw [this, List.drop_succ_cons] at h3
    rw [← h3, List.cons_append, List.take_append_drop]

theorem pick_length {t : Str} {cs : List Nat} (h : ∀ c ∈ cs, c < t.length) :
    (pick t cs).length = cs.length := by
  induction cs with
  | nil => rfl
  | cons c cs ih =>
    have e : pick t (c :: cs) = col t c ++ pick t cs := by simp [pick]
    rw [e, List.length_append, ih (fun c hc => h c (by simp [hc]))]
    have : col t c = [t[c]'(h c (by simp))] := by
      simp [col, List.getElem?_eq_getElem (h c (by simp))]
    rw [this]; simp; omega

variable [PyUnicode]

theorem accepted_layoutOf {r : Record} {line k : Str} {d : Definition} {l : Layout}
    (_hn : NoLeadingSpace line) (ha : Accepted r line k d l) :
    l = layoutOf k (r.enter line k d).primary (pick line (appColumns k)) :=
  select_layoutOf ha.lookup ha.select

end Arinc
