import Verif.Spec.Shape
/-!
# Specification: a record with blanks in front of it
-/
namespace Spec
open Py

/-- what the columns `cs` of a line show if the blanks `pre` stand in front of the record `t`: the blanks themselves, then what
    stands as many columns further left in the record -/
def displaced (pre t : Str) (cs : List Nat) : Str :=
  cs.flatMap fun c => if c < pre.length then col pre c else col t (c - pre.length)

end Spec
