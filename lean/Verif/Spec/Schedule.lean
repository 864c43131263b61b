import Verif.Spec.History
import Verif.Model.Threads
/-!
# Specification: what a thread should see
-/
namespace Spec
open Py Arinc

/-- what the call returned or raised -/
def resultOf : Outcome → Result
  | .none => .none
  | .read res _ => .bool res
  | .decode res _ => .rows res
  | .json text _ => .text text
  | .parse res _ => .bool res
  | .call res _ => .unit res

/-- what the call printed -/
def printedBy : Outcome → List Event
  | .none => []
  | .read _ out | .decode _ out | .json _ out | .parse _ out | .call _ out => out

/-- the results of the calls if no other thread runs -/
def aloneResults [PyUnicode] (ops : List Op) : List Result := (outcomes ops).map resultOf

/-- what they print if no other thread runs -/
def alonePrints [PyUnicode] (ops : List Op) : List Event := (outcomes ops).flatMap printedBy

/-- what thread `i` printed -/
def printed (m : Machine) (i : Nat) : List Event :=
  (m.log.filter (fun p => p.1 = i)).map Prod.snd

end Spec
