import Verif.Spec.Meaning
/-!
# Specification: lines with damaged characters
-/
namespace Spec
open Py Arinc

/-- the line `line'` is `line` with other characters in some of the columns `J` (from 0) -/
def Damaged (J : Nat → Prop) (line line' : Str) : Prop :=
  line'.length = line.length ∧ ∀ i, ¬ J i → line'[i]? = line[i]?

/-- The columns that decide what a record is: the first, the section code (the 13th column only if the 5th and 6th are no
    section), the continuation number, the application type of continuation records (and the restriction type of EU), and
    the numbers at the end. `k` is the section, `primary` whether the record is a primary record. -/
def Deciding (line k : Str) (primary : Bool) (i : Nat) : Prop :=
  i = 0 ∨ i = 4 ∨ i = 5 ∨ (i = 12 ∧ cols line 4 6 ∉ supported) ∨ contColumn k = some i ∨
    (i ∈ appColumns k ∧ (primary = false ∨ k = py!"EU")) ∨ 123 ≤ i

end Spec
