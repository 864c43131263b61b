import Verif.Model.Record
/-!
# __init__.py: `parse`, `search`, `read_file`, `read_folder`
-/
namespace Arinc
open Py
variable [PyUnicode]

/-- Effect of an API call: result or exception, prints, new `LegTypeDesc`. -/
structure CallOut (α : Type) where
  res : Except Exc α
  out : List Event
  legs : Legs

/-- __init__.py:6-15 `parse` -/
def parse (line : Str) (output : Bool) (legs : Legs) : CallOut Bool :=
  let r := Record.new.read line
  match r.res with
  | .error e => ⟨.error e, r.out, legs⟩
  | .ok false => ⟨.ok false, r.out, legs⟩
  | .ok true =>
    let d := r.obj.decode output legs
    match d.res with
    | .error e => ⟨.error e, r.out ++ d.out, d.legs⟩
    | .ok _ => ⟨.ok true, r.out ++ d.out, d.legs⟩

/-- What a path names, as far as `open(path)` and `f.readlines()` are concerned. -/
inductive FileObj where
  /-- a readable file with this decoded text (before newline translation) -/
  | text (s : Str)
  /-- `open` raises an `OSError` (missing, a directory, no permission) -/
  | unopenable
  /-- `readlines` raises `UnicodeDecodeError`, a `ValueError` -/
  | undecodable
deriving DecidableEq, Repr

/-- `with open(path) as f: f.readlines()` -/
def FileObj.readlines : FileObj → Except Exc (List Str)
  | .text s => .ok (Py.readlines s)
  | .unopenable => .error .osError
  | .undecodable => .error .valueError

/-- __init__.py:45-46: the loop of `read_file` -/
def parseLines (output : Bool) : List Str → Legs → CallOut Unit
  | [], legs => ⟨.ok (), [], legs⟩
  | l :: ls, legs =>
    let p := parse l output legs
    match p.res with
    | .error e => ⟨.error e, p.out, p.legs⟩
    | .ok _ =>
      let rest := parseLines output ls p.legs
      ⟨rest.res, p.out ++ rest.out, rest.legs⟩

/-- __init__.py:40-46 `read_file` -/
def readFile (f : FileObj) (output : Bool) (legs : Legs) : CallOut Unit :=
  match f.readlines with
  | .error e => ⟨.error e, [], legs⟩
  | .ok ls => parseLines output ls legs

/-- __init__.py:53-54: the loop of `read_folder` -/
def readFiles : List FileObj → Legs → CallOut Unit
  | [], legs => ⟨.ok (), [], legs⟩
  | f :: fs, legs =>
    let p := readFile f true legs
    match p.res with
    | .error e => ⟨.error e, p.out, p.legs⟩
    | .ok _ =>
      let rest := readFiles fs p.legs
      ⟨rest.res, p.out ++ rest.out, rest.legs⟩

/-- __init__.py:49-54 `read_folder`; `none`: `os.scandir` raises `OSError`, otherwise the
    entries in scan order (as what `open(os.path.join(path, file.name))` finds) -/
def readFolder (entries : Option (List FileObj)) (legs : Legs) : CallOut Unit :=
  match entries with
  | none => ⟨.error .osError, [], legs⟩
  | some fs => readFiles fs legs

/-- __init__.py:29-34: does the record pass the filters? -/
def Filters.keep (filters : Filters) (raw : Str) : Bool :=
  match filters with
  | .str s => contains s raw
  | .list ss => ss.all (fun s => contains s raw)
  | .other => true

/-- __init__.py:25-37: the loop of `search` with its counter, then the summary -/
def searchLines (filters : Filters) : List Str → Nat → Except Exc Unit × List Event
  | [], count => (.ok (), [.summary count filters (count != 0)])
  | l :: ls, count =>
    let r := Record.new.read l
    match r.res with
    | .error e => (.error e, r.out)
    | .ok false =>
      let rest := searchLines filters ls count
      (rest.1, r.out ++ rest.2)
    | .ok true =>
      if filters.keep r.obj.raw then
        let rest := searchLines filters ls (count + 1)
        (rest.1, r.out ++ [.line r.obj.raw] ++ rest.2)
      else
        let rest := searchLines filters ls count
        (rest.1, r.out ++ rest.2)

/-- __init__.py:18-37 `search` -/
def search (f : FileObj) (filters : Filters) : Except Exc Unit × List Event :=
  match f.readlines with
  | .error e => (.error e, [])
  | .ok ls => searchLines filters ls 0

end Arinc
