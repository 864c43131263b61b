import Verif.Spec.Domain
import Verif.Model.Summary
/-!
# Specification: what exceptions say

The words are those of decoder.py and definitions/*.py, and of `int` and `float`. `reprStr` is Python's `repr` (C99).
-/
namespace Spec
open Py Arinc
variable [PyUnicode]

/-- what `float` says of a text that is not a number -/
def notFloat (printable : Nat → Bool) (s : Str) : List Str :=
  [py!"could not convert string to float: " ++ reprStr printable s]

/-- what `int` says of a text that is not a whole number -/
def notInt (printable : Nat → Bool) (s : Str) : List Str :=
  [py!"invalid literal for int() with base 10: " ++ (reprStr printable s).take 200]

/-- the arguments of the `ValueError` about a value that is refused -/
def complaint (printable : Nat → Bool) (fn : DecFn) (v : Str) : List Str :=
  match fn with
  | .f002 => [py!"Invalid Record Type", v]
  | .f008 => [py!"Route Identifier not alphanumeric", v]
  | .f020 => [py!"Invalid Turn Direction:", v]
  | .f021 => [py!"Invalid Path and Termination:", strip v]
  | .f022 => [py!"Invalid Turn Direction Valid (TDV):", strip v]
  | .f023 => [py!"Invalid Recommended NAVAID (RECD NAV):", strip v]
  | .f024 => [py!"Invalid Theta:", strip v]
  | .f025 => [py!"Invalid Rho:", strip v]
  | .f026 => if isAlnum (strip v) = true ∧ (strip v).length ≤ 4 then notFloat printable (strip v)
      else [py!"Invalid Outbound Magnetic Course", strip v]
  | .f027 => notFloat printable (if (strip v).head? = some 84 then (strip v).drop 1 else strip v)
  | .f032 => notInt printable (v.take 2)
  | .f034 => notFloat printable (strip v)
  | .f039 => notInt printable (v.drop 1)
  | .f045 | .f062 | .f103 | .f135 | .f269 => notFloat printable v
  | .f072 => [py!"Invalid speed" ++ v]
  | .f082 => [py!"Invalid Waypoint Usage: '" ++ v ++ py!"'"]
  | .f108 => [py!"Invalid IFR Capability"]
  | .f178 => [py!"substring not found"]
  | .f182 => [py!"bad guard/transmit"]
  | .f270 => [py!"Bad TCH Value Indicator: " ++ v]
  | _ => []

/-- the arguments of the `ValueError` about a record of section `k` with an unsupported application type -/
def appComplaint (k line : Str) : List Str :=
  if k = py!"EU" then [py!"Unknown Restricted Airway Type"]
  else if k = py!"EV" then [py!"Unknown Application\n" ++ col line 56 ++ py!"\n" ++ line]
  else if k = py!"PP" then [py!"bad path point", col line 27]
  else [py!"Unknown Application Type"]

/-- the part of a refused value that the exception should name, for the fields where it names any: the value without the
    blanks around it, or the digits of it -/
def named (fn : DecFn) (v : Str) : Str :=
  match fn with
  | .f027 => if (strip v).head? = some 84 then (strip v).drop 1 else strip v
  | .f032 => v.take 2
  | .f039 => v.drop 1
  | _ => strip v

end Spec
