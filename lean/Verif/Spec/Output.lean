import Verif.Model.Output
import Verif.Spec.Schedule
import Verif.Spec.Agree
import Verif.Spec.Plain
/-!
# Specification: output that lacks characters
-/
namespace Spec
open Py Arinc

/-- `Cut fits o x`: a call whose outcome is `o` where everything can be printed ends as `x` on this output -/
inductive Cut (fits : Event → Bool) (o : Outcome) : Ended → Prop
  /-- everything it prints can be printed here: no difference -/
  | whole (h : ∀ e ∈ printedBy o, fits e = true) : Cut fits o (.ended (resultOf o) (printedBy o))
  /-- what precedes the first text that cannot is printed, then an exception is raised -/
  | cut {out rest : List Event} {e : Event} (h : printedBy o = out ++ e :: rest) (ho : ∀ e ∈ out, fits e = true)
      (he : fits e = false) : Cut fits o (.encodeError out)

/-- the texts of the filter of a search -/
def filtersOf : Op → List Str
  | .search _ (.str s) => [s]
  | .search _ (.list ss) => ss
  | _ => []

/-- the characters of the texts and filters given to a call can all be represented -/
def Covers (can : Nat → Bool) (op : Op) : Prop := ∀ s ∈ textsOf op ++ filtersOf op, ∀ c ∈ s, can c = true

/-- an encoding that has the printable characters of ASCII and the end of a line -/
def HasAscii (can : Nat → Bool) : Prop := ∀ c, Plain c → can c = true

/-- the characters of UTF-8 -/
def inUtf8 (c : Nat) : Bool := !(0xD800 ≤ c && c ≤ 0xDFFF) && c ≤ 0x10FFFF

end Spec
