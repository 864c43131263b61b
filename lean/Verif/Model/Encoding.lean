import Verif.Model.Disk
/-!
# Model: systems whose default encoding is not UTF-8

`open(path)` (src/arinc424/__init__.py:23, 44) gives no encoding, so that the default of the system is used. On Windows
that is a code page, in Western Europe and America Windows-1252. A code page is a table of what each byte stands for;
bytes it does not define raise `UnicodeDecodeError`. Not modelled: the code pages of East Asia, in which some characters
are two bytes.
-/
namespace Arinc
open Py

/-- a code page: what a byte stands for -/
abbrev CodePage := Nat → Option Nat

/-- CPython `PyUnicode_DecodeCharmap` with `errors='strict'` -/
def charmapDecode (t : CodePage) : List Nat → Option Str
  | [] => some []
  | b :: bs =>
    match t b with
    | none => none
    | some c =>
      match charmapDecode t bs with
      | none => none
      | some s => some (c :: s)

section
variable [PyUnicode]

/-- __init__.py:23, 44 `open(path)` on such a system -/
def Disk.fileIn (t : CodePage) : Disk → FileObj
  | .bytes b =>
    match charmapDecode t b with
    | some s => .text s
    | none => .undecodable
  | .unopenable => .unopenable

/-- __init__.py:40-46 `read_file` -/
def readFileIn (t : CodePage) (d : Disk) (output : Bool) (legs : Legs) : CallOut Unit := readFile (d.fileIn t) output legs

/-- __init__.py:49-54 `read_folder` -/
def readFolderIn (t : CodePage) (entries : Option (List Disk)) (legs : Legs) : CallOut Unit :=
  readFolder (entries.map (·.map (Disk.fileIn t))) legs

/-- __init__.py:18-37 `search` -/
def searchIn (t : CodePage) (d : Disk) (filters : Filters) : Except Exc Unit × List Event := search (d.fileIn t) filters

end

/-- ISO 8859-1 -/
def latin1 : CodePage := fun b => if b < 256 then some b else none

/-- Windows-1252 (CPython Lib/encodings/cp1252.py): ISO 8859-1 except for 0x80 to 0x9F -/
def cp1252 : CodePage := fun b =>
  if b < 0x80 ∨ (0xA0 ≤ b ∧ b < 0x100) then some b
  else if b < 0xA0 then
    [some 0x20AC, none, some 0x201A, some 0x0192, some 0x201E, some 0x2026, some 0x2020, some 0x2021,
     some 0x02C6, some 0x2030, some 0x0160, some 0x2039, some 0x0152, none, some 0x017D, none,
     none, some 0x2018, some 0x2019, some 0x201C, some 0x201D, some 0x2022, some 0x2013, some 0x2014,
     some 0x02DC, some 0x2122, some 0x0161, some 0x203A, some 0x0153, none, some 0x017E, some 0x0178][b - 0x80]?.join
  else none

end Arinc
