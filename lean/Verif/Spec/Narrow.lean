import Verif.Spec.File
/-!
# Specification: the lines that a search gets to
-/
namespace Spec
open Py Arinc

/-- `read` of a new object raises no exception on this line -/
def raisesNothing [PyUnicode] (l : Str) : Bool :=
  match (Record.new.read l).res with
  | .ok _ => true
  | .error _ => false

/-- the lines before the first one on which `read` raises an exception (all of them, if there is none) -/
def before [PyUnicode] (ls : List Str) : List Str := ls.takeWhile raisesNothing

end Spec
