import Mathlib.Algebra.Order.Group.Nat
import Mathlib.Algebra.BigOperators.Group.List.Basic
import Verif.Model.Api
/-!
# Specification: how much is printed
-/
namespace Spec
open Py Arinc

/-- A text takes at most two columns of the screen for each of its characters (package wcwidth: 0, 1 or 2 for a
    character, -1 for a text with control characters). -/
def AtMostDouble (width : Str → ℤ) : Prop := ∀ s, -1 ≤ width s ∧ width s ≤ 2 * s.length

/-- the number of characters in the files that can be read -/
def characters : List FileObj → ℕ
  | [] => 0
  | .text s :: fs => s.length + characters fs
  | _ :: fs => characters fs

end Spec
