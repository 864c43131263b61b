import Verif.Spec.Fate
/-!
# Specification: the texts in the table
-/
namespace Spec
open Py

/-- the text of a reading: a number of tenths has exactly one decimal, no value is `None` -/
def Reading.cell : Reading → Str
  | .text s => s
  | .tenths n => fixed 1 n
  | .nothing => py!"None"

/-- the cells of the table for these readings -/
def tableText (xs : List (Str × Str × Reading)) : List (List Str) :=
  xs.map fun x => [x.1, py!"'" ++ x.2.1 ++ py!"'", x.2.2.cell]

end Spec
