import Verif.Model.World
/-!
# How often a call uses what the threads of a process share

Counted are the prints and the operations on the tables of the module.
-/
namespace Spec
open Py Arinc

/-- the number of lines of a file; none if it cannot be read -/
def lineCount (f : FileObj) : Nat :=
  match f.readlines with
  | .ok ls => ls.length
  | .error _ => 0

/-- the most that a call needs -/
def turns : Op → Nat
  | .new _ => 0
  | .read _ _ => 6
  | .decode _ _ => 3
  | .json _ _ _ => 1
  | .parse _ _ => 6
  | .readFile f _ => 6 * lineCount f
  | .readFolder none => 0
  | .readFolder (some fs) => 6 * (fs.map lineCount).sum
  | .search f _ => 6 * lineCount f + 1

end Spec
