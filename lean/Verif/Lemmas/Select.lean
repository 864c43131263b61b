import Verif.Lemmas.Accept
/-! Helper lemmas: which layout each section selects (finite check over the registry). -/
namespace Arinc
open Py Spec

/-- sections whose `read` raises on an unknown application type -/
def raisers : List Str := [py!"ER", py!"EV", py!"HV", py!"PP"]

/-- restriction types EU knows for primary / continuation records -/
def euTypes (primary : Bool) : List Str :=
  if primary then [py!"AE", py!"TC", py!"SC", py!"NR"] else [py!"AE", py!"TC", py!"NR"]

def otherOK (k : Str) : Other → Bool
  | .raise => raisers.contains k
  | .layout l => decide (k = py!"HC") && !l.isEmpty
  | .empty => !raisers.contains k && decide (k ≠ py!"HC")

def euOK (keys : List Str) : Branch → Bool
  | .onApp sel cases .raise => decide (sel = .range 15 17) && decide (cases.map Prod.fst = keys)
  | _ => false

def branchesOK (p : Str × Definition) : Bool :=
  match p.2.contIdx with
  | some i =>
    (match p.2.onPrimary with
      | .always l => !l.isEmpty
      | _ => false) &&
    (match p.2.onCont with
      | .onApp sel cases other =>
        decide (sel = .at (i + 1)) && decide (cases.map Prod.fst = declaredApps p.1) && otherOK p.1 other
      | _ => false) &&
    decide (p.2.continuations = some (declaredApps p.1)) && decide (p.1 ≠ py!"EU")
  | none =>
    if p.1 = py!"EU" then
      euOK (euTypes true) p.2.onPrimary && euOK (euTypes false) p.2.onCont
    else
      match p.2.onPrimary, p.2.onCont with
      | .always l, .always l' => decide (l = l') && !l.isEmpty
      | _, _ => false

theorem branches_ok : registry.all branchesOK = true := by decide +kernel

theorem branches_of {k : Str} {d : Definition} (h : registry.lookup k = some d) :
    branchesOK (k, d) = true := List.all_eq_true.1 branches_ok _ (lookup_mem h)

theorem layout_ne {k : Str} {d : Definition} (h : registry.lookup k = some d) {l : Layout}
    (hl : l ∈ d.layouts) : l ≠ [] := ((entry_facts h).layouts l hl).2

theorem select_primary {k : Str} {d : Definition} (h : registry.lookup k = some d) {i : Nat}
    (hi : d.contIdx = some i) (line : Str) : ∃ l, d.onPrimary = .always l ∧ l ≠ [] ∧
      d.onPrimary.select line = .ok l := by
  have hb := branches_of h
  simp only [branchesOK, hi, Bool.and_eq_true] at hb
  obtain ⟨⟨⟨h1, _⟩, _⟩, _⟩ := hb
  cases hp : d.onPrimary with
  | always l =>
    rw [hp] at h1
    exact ⟨l, rfl, by simpa using h1, rfl⟩
  | onApp _ _ _ => rw [hp] at h1; cases h1

theorem ne_EU_of_cont {k : Str} {d : Definition} (h : registry.lookup k = some d) {i : Nat}
    (hi : d.contIdx = some i) : k ≠ py!"EU" := by
  have hb := branches_of h
  simp only [branchesOK, hi, Bool.and_eq_true, decide_eq_true_eq] at hb
  exact hb.2

theorem continuations_eq {k : Str} {d : Definition} (h : registry.lookup k = some d) {i : Nat}
    (hi : d.contIdx = some i) : d.continuations = some (declaredApps k) := by
  have hb := branches_of h
  simp only [branchesOK, hi, Bool.and_eq_true, decide_eq_true_eq] at hb
  exact hb.1.2

theorem select_cont {k : Str} {d : Definition} (h : registry.lookup k = some d) {i : Nat}
    (hi : d.contIdx = some i) (line : Str) :
    (col line (i + 1) ∈ declaredApps k ∧ ∃ l, d.onCont.select line = .ok l ∧ l ≠ []) ∨
    (col line (i + 1) ∉ declaredApps k ∧
      ((k ∈ raisers ∧ d.onCont.select line = .error .valueError) ∨
       (k = py!"HC" ∧ ∃ l, d.onCont.select line = .ok l ∧ l ≠ []) ∨
       (k ∉ raisers ∧ k ≠ py!"HC" ∧ d.onCont.select line = .ok []))) := by
  have hb := branches_of h
  simp only [branchesOK, hi, Bool.and_eq_true, decide_eq_true_eq] at hb
  obtain ⟨⟨⟨_, h2⟩, _⟩, _⟩ := hb
  cases hc : d.onCont with
  | always l => rw [hc] at h2; cases h2
  | onApp sel cases other =>
    rw [hc] at h2
    simp only [Bool.and_eq_true, decide_eq_true_eq] at h2
    obtain ⟨⟨h3, h4⟩, h5⟩ := h2
    subst h3
    have hpick : pick line (Slice.at (i + 1)).columns = col line (i + 1) := by
      simp [Slice.columns, pick]
    simp only [Branch.select, hpick, ← h4]
    cases hl : cases.lookup (col line (i + 1)) with
    | some l =>
      left
      refine ⟨lookup_isSome_iff.1 (by simp [hl]), l, rfl, ?_⟩
      apply layout_ne h
      have : l ∈ d.onCont.layouts := by
        have hm : l ∈ cases.map Prod.snd := List.mem_map.2 ⟨_, lookup_mem hl, rfl⟩
        rw [hc]; cases other <;> simp_all [Branch.layouts]
      exact List.mem_append_right _ this
    | none =>
      right
      refine ⟨lookup_none_iff.1 hl, ?_⟩
      cases other with
      | raise => left; exact ⟨by simpa [otherOK] using h5, rfl⟩
      | layout l =>
        simp only [otherOK, Bool.and_eq_true, decide_eq_true_eq] at h5
        right; left; exact ⟨h5.1, l, rfl, by simpa using h5.2⟩
      | empty =>
        simp only [otherOK, Bool.and_eq_true, decide_eq_true_eq] at h5
        right; right; exact ⟨by simpa using h5.1, h5.2, rfl⟩

theorem select_EU {d : Definition} (h : registry.lookup (py!"EU") = some d) (p : Bool) {line : Str}
    (ht : 132 ≤ line.length) :
    (cols line 15 17 ∈ euTypes p ∧ ∃ l, (d.branch p).select line = .ok l ∧ l ≠ []) ∨
    (cols line 15 17 ∉ euTypes p ∧ (d.branch p).select line = .error .valueError) := by
  have hb := branches_of h
  have hf := entry_facts h
  have hcn : d.contIdx = none := by rw [hf.cont]; decide
  simp only [branchesOK, hcn, if_true, Bool.and_eq_true] at hb
  have key : euOK (euTypes p) (d.branch p) = true := by
    unfold Definition.branch; cases p
    · exact hb.2
    · exact hb.1
  cases hbr : d.branch p with
  | always l => rw [hbr] at key; cases key
  | onApp sel cases other =>
    rw [hbr] at key
    cases other with
    | empty => cases key
    | layout _ => cases key
    | raise =>
      simp only [euOK, Bool.and_eq_true, decide_eq_true_eq] at key
      obtain ⟨h3, h4⟩ := key
      subst h3
      have hpick : pick line (Slice.range 15 17).columns = cols line 15 17 := by
        rw [cols_eq_pick (by omega) (by omega)]; rfl
      simp only [Branch.select, hpick, ← h4]
      cases hl : cases.lookup (cols line 15 17) with
      | some l =>
        left
        refine ⟨lookup_isSome_iff.1 (by simp [hl]), l, rfl, ?_⟩
        apply layout_ne h
        apply branch_layouts (p := p)
        rw [hbr]
        simp only [Branch.layouts]
        exact List.mem_map.2 ⟨_, lookup_mem hl, rfl⟩
      | none =>
        right
        exact ⟨lookup_none_iff.1 hl, rfl⟩

theorem select_plain {k : Str} {d : Definition} (h : registry.lookup k = some d)
    (hi : d.contIdx = none) (hk : k ≠ py!"EU") :
    d.onPrimary = d.onCont ∧ ∃ l, l ≠ [] ∧ ∀ p line, (d.branch p).select line = .ok l := by
  have hb := branches_of h
  simp only [branchesOK, hi, hk, if_false] at hb
  cases h1 : d.onPrimary with
  | onApp _ _ _ => simp [h1] at hb
  | always l =>
    cases h2 : d.onCont with
    | onApp _ _ _ => simp [h1, h2] at hb
    | always l' =>
      simp [h1, h2] at hb
      obtain ⟨rfl, hne⟩ := hb
      refine ⟨rfl, l, hne, ?_⟩
      intro p line
      unfold Definition.branch
      cases p <;> simp [h1, h2, Branch.select]

end Arinc
