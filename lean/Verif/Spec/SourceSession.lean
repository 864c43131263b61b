import Verif.Spec.SourceLibrary
/-!
# Specification: programs that use the library

Sequences of calls. `run` executes the source; `expected` says what the model makes of the same calls. A program may
catch the exceptions of a call and go on.
-/
namespace Spec
open Py Arinc Arinc.Lang

/-- the state of the interpreter when the library has been imported -/
def imported : St := ⟨[], [(py!"LegTypeDesc", legsVal legTypeDesc), (py!"records", recordsVal)], [], false⟩

section
variable [PyUnicode]

/-! ## A `Record` -/

/-- a call of a method; an argument that is not given is `none`. `single_line` is a `bool`. -/
inductive RecCall where
  | read (line : Str)
  | validate (line : Str)
  | primary
  | hasCont
  | decode (output : Option Val)
  | json (output : Option (Val × Option Bool))

/-- the method and its arguments -/
def RecCall.source : RecCall → Str × List Val
  | .read line => (py!"read", [.str line])
  | .validate line => (py!"validate", [.str line])
  | .primary => (py!"primary", [])
  | .hasCont => (py!"hasCont", [])
  | .decode none => (py!"decode", [])
  | .decode (some o) => (py!"decode", [o])
  | .json none => (py!"json", [])
  | .json (some (o, none)) => (py!"json", [o])
  | .json (some (o, some s)) => (py!"json", [o, .bool s])

/-- `output`: only `True` prints; it is the default -/
def prints : Option Val → Bool
  | none => true
  | some o => isTrue o

/-- what the model says: the result, the prints, the object and the table of leg types afterwards -/
def RecCall.model (sc : Screen) (r : Arinc.Record) (legs : Legs) : RecCall → Except Err Val × List Event × Arinc.Record × Legs
  | .read line => (boolRes (r.readF line), (r.read line).out, (r.read line).obj, legs)
  | .validate line => (.ok (.bool (Arinc.validate line)), [], r, legs)
  | .primary => (.ok (.bool r.primary), [], r, legs)
  | .hasCont => (.ok (.bool r.hasCont), [], r, legs)
  | .decode o => (tableRes sc (r.decodeF sc.printable legs), (r.decode (prints o) legs).out, r, (r.decode (prints o) legs).legs)
  | .json none => (.ok (.str (r.json true true).1), (r.json true true).2, r, legs)
  | .json (some (o, none)) => (.ok (.str (r.json (isTrue o) true).1), (r.json (isTrue o) true).2, r, legs)
  | .json (some (o, some s)) => (.ok (.str (r.json (isTrue o) s).1), (r.json (isTrue o) s).2, r, legs)

/-- the source, call after call on one object: the results, the state, the object -/
def RecCall.run (E : Env) : List RecCall → St → Val → List (Except Err Val) × St × Val
  | [], st, v => ([], st, v)
  | c :: cs, st, v =>
    let r := E.callMethod (py!"Record") c.source.1 v c.source.2 st
    let rest := RecCall.run E cs r.2.1 r.2.2
    (r.1 :: rest.1, rest.2)

/-- the model, call after call on one object: the results, the prints, the object, the table of leg types -/
def RecCall.expected (sc : Screen) : List RecCall → Arinc.Record → Legs → List (Except Err Val) × List Event × Arinc.Record × Legs
  | [], r, legs => ([], [], r, legs)
  | c :: cs, r, legs =>
    let m := c.model sc r legs
    let rest := RecCall.expected sc cs m.2.2.1 m.2.2.2
    (m.1 :: rest.1, m.2.1 ++ rest.2.1, rest.2.2)

/-! ## The functions of the package -/

/-- a call; an argument that is not given is `none`. Paths are what `open` and `os.scandir` make of them. -/
inductive ApiCall where
  | parse (line : Str) (output : Option Val)
  | readFile (f : FileObj) (output : Option Val)
  | readFolder (p : Option (List FileObj))
  | searchText (f : FileObj) (s : Str)
  | searchAll (f : FileObj) (ss : List Str)

/-- the function and its arguments -/
def ApiCall.source : ApiCall → Str × List Val
  | .parse line o => (py!"parse", .str line :: o.toList)
  | .readFile f o => (py!"read_file", .file f :: o.toList)
  | .readFolder p => (py!"read_folder", [.folder p])
  | .searchText f s => (py!"search", [.file f, .str s])
  | .searchAll f ss => (py!"search", [.file f, .list (ss.map .str)])

/-- what the model says: the result, the prints, the table of leg types afterwards -/
def ApiCall.model (sc : Screen) (legs : Legs) : ApiCall → Except Err Val × List Event × Legs
  | .parse line o => (boolRes (parseF sc.printable line legs), (Arinc.parse line (prints o) legs).out, (Arinc.parse line (prints o) legs).legs)
  | .readFile f o => (noneRes (readFileF sc.printable f legs), (Arinc.readFile f (prints o) legs).out, (Arinc.readFile f (prints o) legs).legs)
  | .readFolder p => (noneRes (readFolderF sc.printable p legs), (Arinc.readFolder p legs).out, (Arinc.readFolder p legs).legs)
  | .searchText f s => (noneRes (searchF f), (Arinc.search f (.str s)).2, legs)
  | .searchAll f ss => (noneRes (searchF f), (Arinc.search f (.list ss)).2, legs)

/-- the source, call after call: the results and the state -/
def ApiCall.run (E : Env) : List ApiCall → St → List (Except Err Val) × St
  | [], st => ([], st)
  | c :: cs, st =>
    let r := E.call c.source.1 c.source.2 st
    let rest := ApiCall.run E cs r.2
    (r.1 :: rest.1, rest.2)

/-- the model, call after call: the results, the prints, the table of leg types -/
def ApiCall.expected (sc : Screen) : List ApiCall → Legs → List (Except Err Val) × List Event × Legs
  | [], legs => ([], [], legs)
  | c :: cs, legs =>
    let m := c.model sc legs
    let rest := ApiCall.expected sc cs m.2.2
    (m.1 :: rest.1, m.2.1 ++ rest.2.1, rest.2.2)

end
end Spec
