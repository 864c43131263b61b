import Verif.Spec.SourceSpec
import Verif.Spec.History
/-!
# Specification: programs with any number of objects

A program makes any number of `Record` objects and calls their methods and the functions of the package in any order
(`Op`, `Model/World.lean`). `exec` executes such a call with the source; `Told` says when what the caller sees is what
the model of a process says.
-/
namespace Spec
open Py Arinc Arinc.Lang

/-- the state of an interpreter that runs such a program: that of the library, and the objects of the program -/
structure Interp where
  st : St
  objs : Nat → Val

/-- after `import arinc424`; as in `World.init`, objects not yet made are taken to be new -/
def Interp.start : Interp := ⟨imported, fun _ => recordVal Record.new⟩

/-- the filters are a text or a list of texts -/
def Sayable : Op → Prop
  | .search _ filters => filters ≠ .other
  | _ => True

/-- a method of object `i` -/
def Interp.method (E : Env) (s : Interp) (i : Nat) (name : Str) (args : List Val) : Except Err Val × Interp :=
  let r := E.callMethod (py!"Record") name (s.objs i) args s.st
  (r.1, ⟨r.2.1, fun j => if j = i then r.2.2 else s.objs j⟩)

/-- a function of the package -/
def Interp.function (E : Env) (s : Interp) (name : Str) (args : List Val) : Except Err Val × Interp :=
  let r := E.call name args s.st
  (r.1, { s with st := r.2 })

/-- one call, executed by the source -/
def Interp.exec (E : Env) (s : Interp) : Op → Except Err Val × Interp
  | .new i =>
    match E.call (py!"Record") [] s.st with
    | (.ok v, st) => (.ok .none, ⟨st, fun j => if j = i then v else s.objs j⟩)
    | (.error e, st) => (.error e, { s with st := st })
  | .read i line => s.method E i (py!"read") [.str line]
  | .decode i output => s.method E i (py!"decode") [.bool output]
  | .json i output single => s.method E i (py!"json") [.bool output, .bool single]
  | .parse line output => s.function E (py!"parse") [.str line, .bool output]
  | .readFile f output => s.function E (py!"read_file") [.file f, .bool output]
  | .readFolder entries => s.function E (py!"read_folder") [.folder entries]
  | .search f filters =>
    match filtersVal filters with
    | some v => s.function E (py!"search") [.file f, v]
    | none => (.error .stuck, s)

/-- any calls: of each what it returned or raised and what it printed, and the state -/
def Interp.run (E : Env) : List Op → Interp → List (Except Err Val × List Str) × Interp
  | [], s => ([], s)
  | op :: ops, s =>
    let r := s.exec E op
    let rest := Interp.run E ops r.2
    ((r.1, r.2.st.out.drop s.st.out.length) :: rest.1, rest.2)

/-- what the caller sees of a call is this outcome -/
def Told (sc : Screen) : Outcome → Except Err Val × List Str → Prop
  | .none, r => r = (.ok .none, [])
  | .read res out, r => Answers .bool res r.1 ∧ out.mapM (Event.text sc) = some r.2
  | .decode (.ok rows) out, r =>
    (∃ t, shownTable sc.width rows = some t ∧ r.1 = .ok (.str t)) ∧ out.mapM (Event.text sc) = some r.2
  | .decode (.error e) out, r =>
    (∃ f : Fault, f.exc = e ∧ r.1 = .error (.fault f)) ∧ out.mapM (Event.text sc) = some r.2
  | .json text out, r => r.1 = .ok (.str text) ∧ out.mapM (Event.text sc) = some r.2
  | .parse res out, r => Answers .bool res r.1 ∧ out.mapM (Event.text sc) = some r.2
  | .call res out, r => Answers (fun _ => .none) res r.1 ∧ out.mapM (Event.text sc) = some r.2

/-- two lists have the same length, and what is at the same place in them is related -/
inductive Each {α β : Type} (R : α → β → Prop) : List α → List β → Prop
  | nil : Each R [] []
  | cons {a : α} {b : β} {as : List α} {bs : List β} (h : R a b) (t : Each R as bs) : Each R (a :: as) (b :: bs)

end Spec
