import Verif.Py.Repr
import Verif.Model.Types
/-!
# Cells of the table as text

`Record.decode` hands the decoded values to PrettyTable (record.py:170), which shows `str(value)` in a cell. How it
draws the table around the cells is modelled in `Model/Table.lean`.
-/
namespace Arinc
open Py

/-- `str(value)` -/
def PyVal.text : PyVal → Option Str
  | .str s => some s
  | .float x => x.repr
  | .none => some (py!"None")

/-- the texts of a row (record.py:170) -/
def Row.cells (r : Row) : Option (List Str) := r.decoded.text.map fun s => [r.field, r.value, s]

end Arinc
