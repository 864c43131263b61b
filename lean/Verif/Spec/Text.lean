import Verif.Spec.Value
import Verif.Spec.Shape
/-! # Specification: words -/
namespace Spec
open Py Arinc

/-- A-Z, a-z -/
def Letter (c : Nat) : Prop := (65 ≤ c ∧ c ≤ 90) ∨ (97 ≤ c ∧ c ≤ 122)

/-- 0-9 -/
def Digit (c : Nat) : Prop := 48 ≤ c ∧ c ≤ 57

/-- one or more letters -/
def Letters (w : Str) : Prop := w ≠ [] ∧ ∀ c ∈ w, Letter c

/-- one or more letters and digits -/
def LettersDigits (w : Str) : Prop := w ≠ [] ∧ ∀ c ∈ w, Letter c ∨ Digit c

/-- what a field shown without surrounding blanks may contain: 5.22 letters; 5.23 - 5.25 up to four
    letters and digits -/
def TrimmedOK (fn : DecFn) (w : Str) : Prop :=
  if fn = .f022 then Letters w else LettersDigits w ∧ w.length ≤ 4

/-- the fields shown without surrounding blanks, checked: turn direction valid, recommended navaid,
    theta, rho -/
def trimmedFields : List DecFn := [.f022, .f023, .f024, .f025]

end Spec
