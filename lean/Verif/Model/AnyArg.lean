import Verif.Model.Api
import Verif.Model.Json
/-!
# Model: `line`, `output`, `single_line` and `path` of any type

In the other files `line` is a `str`, the flags are `bool` and a path is what it leads to. Python passes any object.

Modelled: src/arinc424/__init__.py:6-15, 40-54, record.py:108-121, 166-187. Simplified: an object of another class has no
method `strip` (an instance of a class that has one is not modelled), and its `__bool__` has no effects.
-/
namespace Arinc
open Py

/-- an object, as far as these functions look at it -/
inductive Obj where
  | str (s : Str)
  /-- `bytes` or `bytearray`: has `strip` and `startswith`, the latter for bytes only -/
  | bytes (b : List Nat)
  | bool (b : Bool)
  /-- `None` -/
  | none
  | int (i : Int)
  /-- an object of another class; `bool(x)` gives this, or raises (`none`), e.g. a NumPy array -/
  | other (truth : Option Bool)
deriving DecidableEq, Repr

/-- what the functions can raise -/
inductive ArgExc where
  | exc (e : Exc)
  | typeError
  /-- what the object's own `__bool__` raised -/
  | own
deriving DecidableEq, Repr

/-- the exceptions of the other model -/
def liftExc {α : Type} : Except Exc α → Except ArgExc α
  | .error e => .error (.exc e)
  | .ok a => .ok a

/-- `x is True` -/
def Obj.isTrue : Obj → Bool
  | .bool true => true
  | _ => false

/-- `bool(x)` -/
def Obj.truth : Obj → Except ArgExc Bool
  | .str s => .ok (!s.isEmpty)
  | .bytes b => .ok (!b.isEmpty)
  | .bool b => .ok b
  | .none => .ok false
  | .int i => .ok (i != 0)
  | .other (some b) => .ok b
  | .other Option.none => .error .own

/-- what came of a call: result or exception, prints, and the state after it -/
structure ArgOut (α σ : Type) where
  res : Except ArgExc α
  out : List Event
  state : σ

/-- record.py:118-164 `Record.read(line)`. `validate` (record.py:108-111) calls `line.strip()` first, which only `str`
    and bytes have, then `line.startswith(('S', 'T'))`, which raises `TypeError` for bytes. -/
def Record.readArg [PyUnicode] (self : Record) (line : Obj) : ArgOut Bool Record :=
  match line with
  | .str s => let r := self.read s; ⟨liftExc r.res, r.out, r.obj⟩
  | .bytes _ => ⟨.error .typeError, [], self⟩
  | _ => ⟨.error (.exc .attributeError), [], self⟩

/-- record.py:166-173 `Record.decode(output)`: the rows first, then `if output is True` -/
def Record.decodeArg [PyUnicode] (self : Record) (output : Obj) (legs : Legs) : ArgOut (List Row) Legs :=
  let d := decodeRows self.info self.fields legs
  match d.res with
  | .error e => ⟨.error (.exc e), d.out, d.legs⟩
  | .ok rows => ⟨.ok rows, if output.isTrue then d.out ++ [.table rows] else d.out, d.legs⟩

/-- record.py:175-187 `Record.json(output, single_line)`: `if single_line`, then `if output is True` -/
def Record.jsonArg (self : Record) (output single_line : Obj) : ArgOut Str Unit :=
  match single_line.truth with
  | .error e => ⟨.error e, [], ()⟩
  | .ok b =>
    let data := if b then dumps self.dict else dumpsPretty self.dict
    ⟨.ok data, if output.isTrue then [.line data] else [], ()⟩

/-- __init__.py:6-15 `parse(line, output)` -/
def parseArg [PyUnicode] (line output : Obj) (legs : Legs) : ArgOut Bool Legs :=
  let r := Record.new.readArg line
  match r.res with
  | .error e => ⟨.error e, r.out, legs⟩
  | .ok false => ⟨.ok false, r.out, legs⟩
  | .ok true =>
    let d := r.state.decodeArg output legs
    match d.res with
    | .error e => ⟨.error e, r.out ++ d.out, d.state⟩
    | .ok _ => ⟨.ok true, r.out ++ d.out, d.state⟩

/-- __init__.py:45-46: the loop of `read_file` -/
def parseLinesArg [PyUnicode] (output : Obj) : List Str → Legs → ArgOut Unit Legs
  | [], legs => ⟨.ok (), [], legs⟩
  | l :: ls, legs =>
    let p := parseArg (.str l) output legs
    match p.res with
    | .error e => ⟨.error e, p.out, p.state⟩
    | .ok _ =>
      let rest := parseLinesArg output ls p.state
      ⟨rest.res, p.out ++ rest.out, rest.state⟩

/-- __init__.py:40-46 `read_file(path, output)` -/
def readFileArg [PyUnicode] (f : FileObj) (output : Obj) (legs : Legs) : ArgOut Unit Legs :=
  match f.readlines with
  | .error e => ⟨.error (.exc e), [], legs⟩
  | .ok ls => parseLinesArg output ls legs

/-- the `path` argument of `read_folder`, which `os.scandir` accepts -/
inductive PathArg where
  /-- a `str`, `bytes` or `os.PathLike` -/
  | path
  /-- `None`, the current folder -/
  | none
  /-- the number of an open folder -/
  | fd
deriving DecidableEq, Repr

/-- __init__.py:49-54 `read_folder(path)`: `os.scandir` takes all these, `os.path.join` (line 54) raises `TypeError`
    for `None` and for a number. -/
def readFolderArg [PyUnicode] (p : PathArg) (entries : Option (List FileObj)) (legs : Legs) : ArgOut Unit Legs :=
  match p, entries with
  | .path, es => let r := readFolder es legs; ⟨liftExc r.res, r.out, r.legs⟩
  | _, Option.none => ⟨.error (.exc .osError), [], legs⟩
  | _, some [] => ⟨.ok (), [], legs⟩
  | _, some (_ :: _) => ⟨.error .typeError, [], legs⟩

end Arinc
