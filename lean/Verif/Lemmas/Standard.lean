import Verif.Spec.Standard
import Verif.Lemmas.Columns
/-! Helper lemmas: the definitions agree with the lists of `Spec/Standard.lean`. -/
namespace Arinc
open Py Spec Spec.Std

/-- the columns and type the code uses -/
def usedOf (f : StdField) : List Nat × DecFn := f.used.getD (f.columns, f.fn)

def agree : Layout → List StdField → Bool
  | [], [] => true
  | s :: l, f :: fs => s.name == f.name && (s.slice.columns, s.dec) == usedOf f && agree l fs
  | _, _ => false

def agreeCases : List (Str × Layout) → List (Str × List StdField) → Bool
  | [], [] => true
  | c :: cs, d :: ds => c.1 == d.1 && agree c.2 d.2 && agreeCases cs ds
  | _, _ => false

def agreeBranch (b : Branch) (e : List (Str × List StdField) × Option (List StdField)) : Bool :=
  match b, e with
  | .always l, ([], some fs) => agree l fs
  | .onApp _ cs (.layout l), (ds, some fs) => agreeCases cs ds && agree l fs
  | .onApp _ cs .empty, (ds, none) => agreeCases cs ds
  | .onApp _ cs .raise, (ds, none) => agreeCases cs ds
  | _, _ => false

def agreeKind (k : Str) (p : Bool) (b : Branch) : Bool :=
  match kindsOf.find? (fun e => e.1 = k && e.2.1 = p) with
  | none => false
  | some e => agreeBranch b e.2.2

theorem agree_registry :
    registry.all (fun e => agreeKind e.1 true e.2.onPrimary && agreeKind e.1 false e.2.onCont) = true := by
  decide +kernel

theorem agreeCases_lookup {cs : List (Str × Layout)} {ds : List (Str × List StdField)}
    (h : agreeCases cs ds = true) (a : Str) :
    (∃ l fs, cs.lookup a = some l ∧ ds.lookup a = some fs ∧ agree l fs = true) ∨
    (cs.lookup a = none ∧ ds.lookup a = none) := by
  induction cs generalizing ds with
  | nil =>
    cases ds with
    | nil => exact .inr ⟨rfl, rfl⟩
    | cons _ _ => cases h
  | cons c cs ih =>
    cases ds with
    | nil => cases h
    | cons d ds =>
      obtain ⟨a', l⟩ := c
      obtain ⟨b', fs⟩ := d
      simp only [agreeCases, Bool.and_eq_true, beq_iff_eq] at h
      obtain ⟨⟨rfl, h1⟩, h2⟩ := h
      rw [List.lookup_cons, List.lookup_cons]
      cases a == a' with
      | true => exact .inl ⟨l, fs, rfl, rfl, h1⟩
      | false => exact ih h2

theorem agree_lookup {k : Str} {d : Definition} (hd : registry.lookup k = some d) (p : Bool) (a : Str) :
    agree (layoutOf k p a) (fieldsOf k p a) = true := by
  unfold layoutOf
  · simp only [hd]
    have hall := List.all_eq_true.1 agree_registry _ (lookup_mem hd)
    simp only [Bool.and_eq_true] at hall
    have hok : agreeKind k p (d.branch p) = true := by
      unfold Definition.branch; cases p
      · exact hall.2
      · exact hall.1
    unfold agreeKind at hok
    unfold fieldsOf
    cases he : kindsOf.find? (fun e => e.1 = k && e.2.1 = p) with
    | none => rw [he] at hok; cases hok
    | some e =>
      obtain ⟨_, _, ds, o'⟩ := e
      rw [he] at hok
      simp only at hok ⊢
      cases hb : d.branch p with
      | always l =>
        rw [hb] at hok
        cases ds with
        | nil => cases o' with
          | none => cases hok
          | some fs => exact hok
        | cons _ _ => cases o' <;> cases hok
      | onApp sel cs o =>
        rw [hb] at hok
        cases o with
        | layout l =>
          cases o' with
          | none => cases hok
          | some fs =>
            simp only [agreeBranch, Bool.and_eq_true] at hok
            rcases agreeCases_lookup hok.1 a with ⟨l', fs', h1, h2, h3⟩ | ⟨h1, h2⟩
            · simp only [h1, h2]; exact h3
            · simp only [h1, h2]; exact hok.2
        | empty =>
          cases o' with
          | some fs => cases hok
          | none =>
            rcases agreeCases_lookup hok a with ⟨l', fs', h1, h2, h3⟩ | ⟨h1, h2⟩
            · simp only [h1, h2]; exact h3
            · simp only [h1, h2]; rfl
        | raise =>
          cases o' with
          | some fs => cases hok
          | none =>
            rcases agreeCases_lookup hok a with ⟨l', fs', h1, h2, h3⟩ | ⟨h1, h2⟩
            · simp only [h1, h2]; exact h3
            · simp only [h1, h2]; rfl

theorem agree_layoutOf {k : Str} {p : Bool} {a : Str} (hne : layoutOf k p a ≠ []) :
    agree (layoutOf k p a) (fieldsOf k p a) = true := by
  cases hd : registry.lookup k with
  | none => unfold layoutOf at hne; rw [hd] at hne; exact absurd rfl hne
  | some d => exact agree_lookup hd p a

theorem agree_nil {l : Layout} {fs : List StdField} (h : agree l fs = true) : l = [] ↔ fs = [] := by
  cases l <;> cases fs <;> simp_all [agree]

theorem agree_map {l : Layout} {fs : List StdField} (h : agree l fs = true) (line : Str) :
    l.map (FieldSpec.field line) = fs.map (fun f => ⟨f.name, pick line (usedOf f).1, (usedOf f).2⟩) := by
  induction l generalizing fs with
  | nil => cases fs with
    | nil => rfl
    | cons _ _ => cases h
  | cons s l ih => cases fs with
    | nil => cases h
    | cons f fs =>
      simp only [agree, Bool.and_eq_true, beq_iff_eq] at h
      obtain ⟨⟨h1, h2⟩, h3⟩ := h
      rw [List.map_cons, List.map_cons, ih h3, ← h2, ← h1]
      rfl

/-- what it means that the code does something else: other columns or another type -/
theorem used_differs : kindsOf.all (fun e => (e.2.2.1.map (·.2) ++ e.2.2.2.toList).all (fun fs =>
    fs.all (fun f => f.used.all (fun u => u != (f.columns, f.fn))))) = true := by decide +kernel

theorem fieldsOf_mem {k : Str} {p : Bool} {a : Str} {f : StdField} (h : f ∈ fieldsOf k p a) :
    ∃ e ∈ kindsOf, ∃ fs ∈ e.2.2.1.map (·.2) ++ e.2.2.2.toList, f ∈ fs := by
  unfold fieldsOf at h
  split at h
  · cases h
  · next e he =>
    refine ⟨e, List.mem_of_find?_eq_some he, ?_⟩
    split at h
    · next _ l hl => exact ⟨l, List.mem_append_left _ (List.mem_map.2 ⟨_, lookup_mem hl, rfl⟩), h⟩
    · next _ l hl ho => exact ⟨l, List.mem_append_right _ (by rw [ho]; simp), h⟩
    · cases h

end Arinc
