import Verif.Spec.SourceSession
import Verif.Spec.Fate
/-!
# Specification: what is asked of a call of the source

The specification of the functions (`Spec/Fate.lean`) speaks of results and of things printed. Here it is put as a
demand on a call of the source, in the values of the language.
-/
namespace Spec
open Py Arinc Arinc.Lang

/-- the specified result, as a value of the language; of an exception the specification says which one it is -/
def Answers {α : Type} (val : α → Val) : Except Exc α → Except Err Val → Prop
  | .ok a, r => r = .ok (val a)
  | .error e, r => ∃ f : Fault, f.exc = e ∧ r = .error (.fault f)

/-- after the calls `before` in a fresh interpreter: the call gives the specified result and prints the specified things -/
def Does [PyUnicode] {α : Type} (sc : Screen) (E : Env) (before : List ApiCall) (fn : Str) (args : List Val) (val : α → Val)
    (res : Except Exc α) (out : List Event) : Prop :=
  let st := (ApiCall.run E before imported).2
  Answers val res (E.call fn args st).1 ∧
  ∃ texts, out.mapM (Event.text sc) = some texts ∧ (E.call fn args st).2.out = st.out ++ texts

/-- an attribute of an object -/
def attr (name : Str) : Val → Option Val
  | .obj _ as => find as name
  | _ => none

end Spec
