import Verif.Model.Stream
/-!
# Files and folders that change while they are read
-/
namespace Arinc
open Py
variable [PyUnicode]

/-- What another program makes of a file: its bytes at every moment. -/
abbrev Changing := Nat → List Nat

/-- What the operating system delivers of such a file: `Arrives c t i rs` says that the reads from the moment `t` on, when
    `i` bytes have been read, bring the pieces `rs`. A read brings some of the bytes that are there at its moment, and
    none only at the end of the file. -/
inductive Arrives (c : Changing) : Nat → Nat → List (List Nat) → Prop
  | nil (t i : Nat) : Arrives c t i []
  | read {t i t' : Nat} {x : List Nat} {rs : List (List Nat)} (ht : t ≤ t') (hx : x <+: (c t').drop i)
      (hend : x = [] → (c t').length ≤ i) (h : Arrives c t' (i + x.length) rs) : Arrives c t i (x :: rs)

omit [PyUnicode] in
/-- __init__.py:25, 45 `f.readlines()` when reads bring these pieces, after the pieces `cs`. `readline` returns what
    there is of a line when a read brings nothing, but the next `readline` reads again; `readlines` ends when a
    `readline` finds nothing at all (CPython Modules/_io/textio.c `_textiowrapper_readline`,
    `textiowrapper_read_chunk`). So reading goes on if the bytes up to the end of the file did not end with LF.
    `none`: the pieces are not all that is read. Simplified: bytes that are no UTF-8 are noticed at the end of the file,
    where CPython notices them in the piece where they are. -/
def liveLines : List (List Nat) → List (List Nat) → Option (Except Exc (List Str))
  | _, [] => none
  | cs, [] :: rs =>
    match (Source.pieces cs).readlines with
    | .error e => some (.error e)
    | .ok ls =>
      if cs.flatten = [] ∨ cs.flatten.getLast? = some 10 then some (.ok ls)
      else (liveLines [] rs).map fun r => r.map (ls ++ ·)
  | cs, x :: rs => liveLines (cs ++ [x]) rs

/-- __init__.py:40-46 `read_file` -/
def readFileLive (rs : List (List Nat)) (output : Bool) (legs : Legs) : Option (CallOut Unit) :=
  (liveLines [] rs).map fun
    | .error e => ⟨.error e, [], legs⟩
    | .ok ls => parseLines output ls legs

/-- __init__.py:18-37 `search` -/
def searchLive (rs : List (List Nat)) (filters : Filters) : Option (Except Exc Unit × List Event) :=
  (liveLines [] rs).map fun
    | .error e => (.error e, [])
    | .ok ls => searchLines filters ls 0

/-- What other programs make of a folder: what each name is at every moment, `none` if there is no such entry. -/
abbrev ChangingFolder := Nat → Str → Option FileObj

omit [PyUnicode] in
/-- what `open` finds at a moment; `FileNotFoundError` is an `OSError`. Simplified: the file is read as it is when it is
    opened (for files that change afterwards see `liveLines`). -/
def ChangingFolder.opened (d : ChangingFolder) (name : Str) (t : Nat) : FileObj :=
  match d t name with
  | some f => f
  | none => .unopenable

/-- __init__.py:49-54 `read_folder`: the entries `os.scandir` gives, each with the moment when it is opened -/
def readFolderLive (d : ChangingFolder) (entries : List (Str × Nat)) (legs : Legs) : CallOut Unit :=
  readFiles (entries.map fun e => d.opened e.1 e.2) legs

end Arinc
