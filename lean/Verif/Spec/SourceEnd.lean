import Verif.Spec.SourceProgram
import Verif.Spec.Meaning
import Verif.Spec.Json
/-!
# Specification: what a call on an object shows, later in a program
-/
namespace Spec
open Py Arinc Arinc.Lang

/-- the call does not rebind object `i` and does not make it read another line -/
def Leaves (i : Nat) : Op → Prop
  | .new j | .read j _ => j ≠ i
  | _ => True

/-- object `i` of a program that has made the calls `before`, then `i.read(line)`, then the calls `between` -/
def Interp.later [PyUnicode] (E : Env) (before : List Op) (i : Nat) (line : Str) (between : List Op) : Interp :=
  (Interp.run E (before ++ .read i line :: between) Interp.start).2

/-- the call returns this text, and prints it and nothing else if it is asked to -/
def Interp.Gives [PyUnicode] (E : Env) (s : Interp) (op : Op) (output : Bool) (text : Str) : Prop :=
  (s.exec E op).1 = .ok (.str text) ∧ (s.exec E op).2.st.out = s.st.out ++ (if output then [text] else [])

end Spec
