import Verif.Py.UnicodeTables
/-!
# CPython 3.11's character database as an instance of `PyUnicode`

Used for concrete examples and to show that the laws of `PyUnicode` are satisfiable by a
real interpreter. It is a `def`, not a global instance: theorems never depend on it.
-/
namespace Py.Tables

/-- membership in a list of ranges -/
def inRanges (rs : List (Nat × Nat)) (c : Nat) : Bool :=
  rs.any (fun r => r.1 ≤ c && c ≤ r.2)

/-- decimal value: position within its block of ten -/
def decimalVal (c : Nat) : Option Nat :=
  (decimalRanges.find? (fun r => r.1 ≤ c && c ≤ r.2)).map (fun r => c - r.1)

theorem mem_spaces {c : Nat} (h : isSpace c = true) : c ∈ spaces := by
  simp only [isSpace, Bool.or_eq_true, Bool.and_eq_true, decide_eq_true_eq, beq_iff_eq] at h
  simp only [spaces, List.mem_cons]
  omega

theorem ascii_ok : ∀ c : Fin 128,
    inRanges alphaRanges c.1 = ((65 ≤ c.1 && c.1 ≤ 90) || (97 ≤ c.1 && c.1 ≤ 122)) ∧
    inRanges numericRanges c.1 = (48 ≤ c.1 && c.1 ≤ 57) ∧
    decimalVal c.1 = (if 48 ≤ c.1 ∧ c.1 ≤ 57 then some (c.1 - 48) else none) := by
  decide +kernel

theorem spaces_ok : ∀ c ∈ spaces, inRanges alphaRanges c = false ∧ inRanges numericRanges c = false := by
  decide +kernel

theorem decimal_sub : ∀ r ∈ decimalRanges, r.2 = r.1 + 9 ∧
    (numericRanges.any fun q => decide (q.1 ≤ r.1) && decide (r.2 ≤ q.2)) = true := by
  decide +kernel

theorem decimal_some {c d : Nat} (h : decimalVal c = some d) :
    ∃ r ∈ decimalRanges, r.1 ≤ c ∧ c ≤ r.2 ∧ d = c - r.1 := by
  simp only [decimalVal, Option.map_eq_some_iff] at h
  obtain ⟨r, hr, rfl⟩ := h
  have h1 := List.mem_of_find?_eq_some hr
  have h2 := List.find?_some hr
  simp only [Bool.and_eq_true, decide_eq_true_eq] at h2
  exact ⟨r, h1, h2.1, h2.2, rfl⟩

/-- The character database of CPython 3.11 (Unicode 14.0.0). -/
@[instance_reducible] def cpython311 : PyUnicode where
  alpha := inRanges alphaRanges
  decimal := decimalVal
  numeric := inRanges numericRanges
  alpha_ascii c h := (ascii_ok ⟨c, h⟩).1
  numeric_ascii c h := (ascii_ok ⟨c, h⟩).2.1
  decimal_ascii c h := (ascii_ok ⟨c, h⟩).2.2
  decimal_lt c d h := by
    obtain ⟨r, hr, h1, h2, rfl⟩ := decimal_some h
    have := (decimal_sub r hr).1
    omega
  decimal_numeric c d h := by
    obtain ⟨r, hr, h1, h2, rfl⟩ := decimal_some h
    have h3 := (decimal_sub r hr).2
    rw [List.any_eq_true] at h3
    obtain ⟨q, hq, h4⟩ := h3
    simp only [Bool.and_eq_true, decide_eq_true_eq] at h4
    simp only [inRanges, List.any_eq_true, Bool.and_eq_true, decide_eq_true_eq]
    exact ⟨q, hq, by omega, by omega⟩
  numeric_not_space c h := by
    cases hs : isSpace c with
    | false => rfl
    | true => have := (spaces_ok c (mem_spaces hs)).2; simp_all
  alpha_not_space c h := by
    cases hs : isSpace c with
    | false => rfl
    | true => have := (spaces_ok c (mem_spaces hs)).1; simp_all

end Py.Tables
