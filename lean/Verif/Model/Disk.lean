import Verif.Model.Api
import Verif.Py.Utf8
/-!
# Files as bytes
-/
namespace Arinc
open Py
variable [PyUnicode]

/-- What is on the disk at a path, as far as `open` is concerned. -/
inductive Disk where
  /-- a readable file with these bytes -/
  | bytes (b : List Nat)
  /-- `open` raises an `OSError` (missing, a directory, no permission) -/
  | unopenable
deriving DecidableEq, Repr

/-- __init__.py:23, 44 `open(path)` gives no encoding; the model is of a system where the default is UTF-8.
    CPython decodes the file in pieces; here it is decoded at once (C94: it is the same). -/
def Disk.file : Disk → FileObj
  | .bytes b =>
    match utf8Decode b with
    | some s => .text s
    | none => .undecodable
  | .unopenable => .unopenable

/-- __init__.py:40-46 `read_file` -/
def readFileAt (d : Disk) (output : Bool) (legs : Legs) : CallOut Unit := readFile d.file output legs

/-- __init__.py:49-54 `read_folder`; `none`: `os.scandir` raises `OSError` -/
def readFolderAt (entries : Option (List Disk)) (legs : Legs) : CallOut Unit :=
  readFolder (entries.map (·.map Disk.file)) legs

/-- __init__.py:18-37 `search` -/
def searchAt (d : Disk) (filters : Filters) : Except Exc Unit × List Event := search d.file filters

end Arinc
