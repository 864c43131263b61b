import Verif.Lemmas.Standard
import Verif.Props.Samples
/-!
# C72: every kind of record has its fields

The fields of every kind of record are listed in `Spec/Standard.lean`, with the columns and types they
have in ARINC 424-18.
-/
namespace Arinc
open Py Spec Spec.Std

section
variable [PyUnicode]

/-! ## C72 -/

/-- the list for the kind of record that was read -/
abbrev listFor (o : Record) (line : Str) : List StdField :=
  fieldsOf o.ident o.primary (pick line (appColumns o.ident))

/-- C72: an accepted record has exactly the fields listed for its kind, in that order. -/
theorem C72_fields (r : Record) (line : Str) (h : (r.read line).res = .ok true) :
    (r.read line).obj.fields.map (·.name) = (listFor (r.read line).obj line).map (·.name) := by
  obtain ⟨d, l, ha, hl, hf⟩ := accepted_kind h
  rw [hf, agree_map (fs := listFor (r.read line).obj line) ?_ line]
  · simp
  · have hne := ha.ne
    rw [hl] at hne ⊢
    exact agree_layoutOf hne

/-- C72 (partial): and each field shows the columns it has in the standard, and is decoded as the type it
    has in the standard. Missing: the fields marked with `but`, for which it is false (`C72_refuted`). -/
theorem C72_columns_partial (r : Record) (line : Str) (h : (r.read line).res = .ok true) (i : Nat)
    {f : StdField} (hf : (listFor (r.read line).obj line)[i]? = some f) (hu : f.used = none) :
    (r.read line).obj.fields[i]? = some ⟨f.name, pick line f.columns, f.fn⟩ := by
  obtain ⟨d, l, ha, hl, he⟩ := accepted_kind h
  have hne := ha.ne
  rw [hl] at hne he
  rw [he, agree_map (agree_layoutOf hne) line, List.getElem?_map, hf]
  simp [usedOf, hu]

/-- C72 is false of the fields marked with `but`: they show other columns, or are decoded as another
    type. -/
theorem C72_refuted (r : Record) (line : Str) (h : (r.read line).res = .ok true) (i : Nat)
    {f : StdField} (hf : (listFor (r.read line).obj line)[i]? = some f) {u : List Nat × DecFn}
    (hu : f.used = some u) :
    (r.read line).obj.fields[i]? = some ⟨f.name, pick line u.1, u.2⟩ ∧ u ≠ (f.columns, f.fn) := by
  obtain ⟨d, l, ha, hl, he⟩ := accepted_kind h
  have hne := ha.ne
  rw [hl] at hne he
  constructor
  · rw [he, agree_map (agree_layoutOf hne) line, List.getElem?_map, hf]
    simp [usedOf, hu]
  · obtain ⟨e, he, fs, hfs, hm⟩ := fieldsOf_mem (List.mem_of_getElem? hf)
    have := List.all_eq_true.1 used_differs e he
    have := List.all_eq_true.1 (List.all_eq_true.1 this fs hfs) f hm
    rw [hu] at this
    simpa using this

end

/-! ## Non-vacuity -/
section
attribute [local instance] Py.Tables.cpython311

/-- the fields of an airport -/
example : (Record.new.read Sample.airport).res = .ok true ∧
    (listFor (Record.new.read Sample.airport).obj Sample.airport).length = 28 ∧
    (listFor (Record.new.read Sample.airport).obj Sample.airport).all (fun f => f.used = none) = true := by
  decide +kernel
/-- a field cut short: the class of a VHF navaid -/
example : (Record.new.read Sample.vhf).res = .ok true ∧
    ((listFor (Record.new.read Sample.vhf).obj Sample.vhf)[9]?.bind (·.used)) = some ([27, 28], .ident 35) := by
  decide +kernel

end
end Arinc
