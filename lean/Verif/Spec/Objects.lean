import Verif.Model.Objects
import Verif.Spec.Shared
/-!
# Specification: objects that share lists
-/
namespace Spec
open Py Arinc

/-- the objects that a program of a caller can lead to -/
def Reached [PyUnicode] (h : Heap) : Prop := ∃ ops, h = (Heap.start.run ops).1

/-- calls and copies: the caller does not touch the attributes of a `Record` or a `Field`, nor a list -/
def plainOp : ObjOp → Bool
  | .new | .copy _ | .call _ _ => true
  | _ => false

/-- the object after the call -/
def afterCall [PyUnicode] (r : Record) : Call → Record
  | .read line => (r.read line).obj
  | _ => r

/-- The same operations if every object had a list of its own: a copy copies the list, too. -/
def byValue [PyUnicode] (rs : List Record) : ObjOp → List Record × Option (Result × List Event)
  | .new => (rs ++ [Record.new], none)
  | .copy i =>
    match rs[i]? with
    | none => (rs, none)
    | some r => (rs ++ [r], none)
  | .call i c =>
    match rs[i]? with
    | none => (rs, none)
    | some r => (rs.set i (afterCall r c), some (aloneCall r c))
  | _ => (rs, none)

/-- the object named by the operation exists -/
def possibleValue (rs : List Record) : ObjOp → Bool
  | .copy i | .call i _ => decide (i < rs.length)
  | _ => true

/-- a program of such operations; those on objects that do not exist are left out -/
def byValues [PyUnicode] (rs : List Record) : List ObjOp → List Record × List (Option (Result × List Event))
  | [] => (rs, [])
  | op :: ops =>
    if possibleValue rs op then
      let x := byValue rs op
      let rest := byValues x.1 ops
      (rest.1, x.2 :: rest.2)
    else byValues rs ops

/-- The operation changes nothing but the list `l` and the `Field`s `as`. -/
def touchesOnly (l : Nat) (as : List Nat) : ObjOp → Prop
  | .setField a _ => a ∈ as
  | .setList l' _ => l' = l
  | _ => False

end Spec
