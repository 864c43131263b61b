import Verif.Model.Interrupt
import Verif.Spec.Schedule
/-!
# Specification: calls that are interrupted
-/
namespace Spec
open Py Arinc

/-- the calls that were not interrupted -/
def completed : List Item → List Op
  | [] => []
  | .call op :: items => op :: completed items
  | .cut _ _ _ :: items => completed items

/-- the object whose contents are unknown after the call was interrupted -/
def spoiled : Op → Option Nat
  | .new i | .read i _ => some i
  | _ => none

/-- `Agree bad items seen outs`: the calls of the session `items` that are not interrupted have the outcomes `outs`,
    apart from calls on objects that are `bad`, i.e. left behind by an interrupted `read` and not created anew. -/
inductive Agree : (Nat → Prop) → List Item → List Sight → List Outcome → Prop
  | nil {bad : Nat → Prop} : Agree bad [] [] []
  /-- an interrupted call counts as not made, but for its object -/
  | cut {bad : Nat → Prop} {op : Op} {n : Nat} {left : Left} {items : List Item} {out : List Event}
      {seen : List Sight} {outs : List Outcome}
      (t : Agree (fun i => bad i ∨ spoiled op = some i) items seen outs) :
      Agree bad (.cut op n left :: items) (.interrupted out :: seen) outs
  /-- a new object is as good as any -/
  | new {bad : Nat → Prop} {i : Nat} {items : List Item} {o : Outcome} {seen : List Sight} {outs : List Outcome}
      (t : Agree (fun j => bad j ∧ j ≠ i) items seen outs) :
      Agree bad (.call (.new i) :: items) (.outcome o :: seen) (o :: outs)
  /-- the same outcome -/
  | same {bad : Nat → Prop} {op : Op} {items : List Item} {o : Outcome} {seen : List Sight} {outs : List Outcome}
      (h : ∀ i, target op = some i → ¬ bad i) (t : Agree bad items seen outs) :
      Agree bad (.call op :: items) (.outcome o :: seen) (o :: outs)
  /-- nothing is said of the object of an interrupted `read` -/
  | unknown {bad : Nat → Prop} {op : Op} {i : Nat} {items : List Item} {o o' : Outcome} {seen : List Sight}
      {outs : List Outcome} (h : target op = some i) (hn : op ≠ .new i) (hb : bad i) (t : Agree bad items seen outs) :
      Agree bad (.call op :: items) (.outcome o :: seen) (o' :: outs)

end Spec
