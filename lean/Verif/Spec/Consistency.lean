import Verif.Spec.File
import Verif.Spec.Json
/-!
# Specification: what was printed
-/
namespace Spec
open Py Arinc

/-- the tables among the things printed, in order -/
def tables (out : List Event) : List (List Row) :=
  out.filterMap fun
    | .table rows => some rows
    | _ => none

/-- the lines among the things printed, in order -/
def printedLines (out : List Event) : List Str :=
  out.filterMap fun
    | .line l => some l
    | _ => none

/-- the text of a file with these lines -/
def fileOf (ls : List Str) : Str := terminated [10] ls

/-- the value without the quotes around it -/
def unquoted (s : Str) : Str := s.tail.dropLast

end Spec
