import Verif.Model.World
/-!
# Specification: histories of calls

Vocabulary to talk about the states a process can reach and about the calls made on one object.
-/
namespace Spec
open Py Arinc

/-- A leg-type table that is the pristine one plus entries for undocumented codes, all
    described as `<UNKNOWN>`. -/
def Grown (legs : Legs) : Prop :=
  ∃ extra, legs = legTypeDesc ++ extra ∧
    ∀ p ∈ extra, p.1 ∉ legTypeDesc.map Prod.fst ∧ p.2 = py!"<UNKNOWN>"

/-- the object a call is made on; the functions of the module use objects of their own -/
def target : Op → Option Nat
  | .new i | .read i _ | .decode i _ | .json i _ _ => some i
  | .parse _ _ | .readFile _ _ | .readFolder _ | .search _ _ => none

/-- the call is made on object `i` -/
def onObject (i : Nat) (op : Op) : Bool := decide (target op = some i)

/-- what is printed contains no table -/
def NoTable (out : List Event) : Prop := ∀ rows, Event.table rows ∉ out

/-- State of the process after a sequence of calls from import on. -/
def after [PyUnicode] (ops : List Op) : World := (World.init.run ops).1

/-- Outcomes of a sequence of calls from import on. -/
def outcomes [PyUnicode] (ops : List Op) : List Outcome := (World.init.run ops).2

end Spec
