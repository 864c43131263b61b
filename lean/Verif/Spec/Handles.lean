import Verif.Model.Handles
/-!
# Specification: what is held open
-/
namespace Spec
open Py Arinc

inductive Handle where
  | file (n : Nat)
  | dir
deriving DecidableEq

/-- what is open after the acts, given what was open before -/
def held (open' : List Handle) : List Act → List Handle
  | [] => open'
  | .openFile n :: as => held (.file n :: open') as
  | .closeFile n :: as => held (open'.erase (.file n)) as
  | .openDir :: as => held (.dir :: open') as
  | .closeDir :: as => held (open'.erase .dir) as
  | .print _ :: as => held open' as

/-- what is printed -/
def actsPrint : List Act → List Event
  | [] => []
  | .print e :: as => e :: actsPrint as
  | _ :: as => actsPrint as

/-- the files that are opened, in order -/
def opened : List Act → List Nat
  | [] => []
  | .openFile n :: as => n :: opened as
  | _ :: as => opened as

/-- how a call ends that is not interrupted -/
def ends {α : Type} : Except Stop α → Except Exc Unit → Prop
  | .ok _, r => r = .ok ()
  | .error (.exc e), r => r = .error e
  | .error .interrupt, _ => False

end Spec
