import Verif.Model.World
/-!
# Specification: interpreters that classify characters in the same way
-/
namespace Spec
open Py Arinc

/-- two interpreters give the same answer to "is this character a letter, a number, which digit is it?" -/
def SameClass (u v : PyUnicode) (c : Nat) : Prop :=
  u.alpha c = v.alpha c ∧ u.numeric c = v.numeric c ∧ u.decimal c = v.decimal c

/-- the texts given to a call: its line, or the contents of its files -/
def textsOf : Op → List Str
  | .read _ line | .parse line _ => [line]
  | .readFile (.text s) _ | .search (.text s) _ => [s]
  | .readFolder (some fs) => fs.filterMap fun f => match f with
    | .text s => some s
    | _ => none
  | _ => []

end Spec
