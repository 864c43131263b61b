import Verif.Model.Disk
import Verif.Py.Stream
/-!
# Files as they are delivered
-/
namespace Arinc
open Py
variable [PyUnicode]

/-- what reading a path brings -/
inductive Source where
  /-- the pieces in which the operating system delivers the bytes, up to the end of the file -/
  | pieces (cs : List (List Nat))
  /-- after these pieces, reading fails with an `OSError` (a disk or network error) -/
  | broken (cs : List (List Nat))
  /-- `open` raises an `OSError` -/
  | unopenable
deriving DecidableEq, Repr

/-- __init__.py:25, 45 `f.readlines()`, with the text decoded piece by piece (UTF-8) -/
def Source.readlines : Source → Except Exc (List Str)
  | .pieces cs =>
    match textPieces [] false true cs with
    | .ok ps => .ok (linesOfPieces [] ps)
    | .error true => .error .valueError
    | .error false => .error .osError
  | .broken cs =>
    match textPieces [] false false cs with
    | .ok ps => .ok (linesOfPieces [] ps)
    | .error true => .error .valueError
    | .error false => .error .osError
  | .unopenable => .error .osError

/-- __init__.py:40-46 `read_file` -/
def readFileFrom (s : Source) (output : Bool) (legs : Legs) : CallOut Unit :=
  match s.readlines with
  | .error e => ⟨.error e, [], legs⟩
  | .ok ls => parseLines output ls legs

/-- __init__.py:18-37 `search` -/
def searchFrom (s : Source) (filters : Filters) : Except Exc Unit × List Event :=
  match s.readlines with
  | .error e => (.error e, [])
  | .ok ls => searchLines filters ls 0

/-- __init__.py:53-54: the loop of `read_folder` -/
def readFilesFrom : List Source → Legs → CallOut Unit
  | [], legs => ⟨.ok (), [], legs⟩
  | f :: fs, legs =>
    let p := readFileFrom f true legs
    match p.res with
    | .error e => ⟨.error e, p.out, p.legs⟩
    | .ok _ =>
      let rest := readFilesFrom fs p.legs
      ⟨rest.res, p.out ++ rest.out, rest.legs⟩

end Arinc
