import Verif.Model.Api
/-!
# Model: the files and directories a call holds open

`read_file`, `search` and `read_folder` once more, as programs that show when they open and close a file
(`with open(path) as f`, __init__.py:23, 44) or a directory (`os.scandir`, __init__.py:53), and that may be interrupted
at any moment (`KeyboardInterrupt`, a `print` that fails).

A `with` statement closes its file however its body ends. The iterator of `os.scandir` closes the directory when it has
no more entries; `read_folder` has no `with` and no `close()` for it, so if an exception leaves the loop, the directory
remains open until the iterator is collected as garbage, which the traceback of the exception prevents as long as it is
referred to. Simplified: an interrupt between the opening of a file and the start of the `with` block is taken to come
before the opening (CPython looks for signals only at some instructions, and drops the file object anyway); all
entries of the directory are read when it is scanned; the directory does not change.
-/
namespace Arinc
open Py

/-- what the operating system and the terminal see of a call -/
inductive Act where
  | openFile (n : Nat)
  | closeFile (n : Nat)
  | openDir
  | closeDir
  | print (e : Event)
deriving DecidableEq, Repr

/-- why a call ends early -/
inductive Stop where
  | exc (e : Exc)
  | interrupt
deriving DecidableEq, Repr

/-- what a program came to; `left`: after how many more acts it is to be interrupted (`none`: never) -/
structure Tr (α : Type) where
  res : Except Stop α
  acts : List Act
  left : Option Nat

/-- a program, given after how many acts it is to be interrupted -/
def Io (α : Type) := Option Nat → Tr α

namespace Io

/-- `return a` -/
def ret {α : Type} (a : α) : Io α := fun n => ⟨.ok a, [], n⟩

/-- an exception -/
def raise {α : Type} (e : Exc) : Io α := fun n => ⟨.error (.exc e), [], n⟩

/-- one statement after the other; the second is not executed if the first does not end normally -/
def andThen {α β : Type} (p : Io α) (q : α → Io β) : Io β := fun n =>
  match (p n).res with
  | .error e => ⟨.error e, (p n).acts, (p n).left⟩
  | .ok a => ⟨(q a (p n).left).res, (p n).acts ++ (q a (p n).left).acts, (q a (p n).left).left⟩

/-- an act, or the interruption before it -/
def act (a : Act) : Io Unit
  | some 0 => ⟨.error .interrupt, [], some 0⟩
  | some (n + 1) => ⟨.ok (), [a], some n⟩
  | none => ⟨.ok (), [a], none⟩

/-- some prints -/
def prints : List Event → Io Unit
  | [] => ret ()
  | e :: es => (act (.print e)).andThen fun _ => prints es

/-- the file is closed however `p` ends -/
def closing {α : Type} (n : Nat) (p : Io α) : Io α := fun k =>
  ⟨(p k).res, (p k).acts ++ [.closeFile n], (p k).left⟩

/-- `with open(path) as f:` and `f.readlines()` (__init__.py:23-25, 44-45), for the `n`-th file of the call -/
def withFile {α : Type} (n : Nat) (f : FileObj) (body : List Str → Io α) : Io α :=
  match f with
  | .unopenable => raise .osError
  | .undecodable => (act (.openFile n)).andThen fun _ => closing n (raise .valueError)
  | .text s => (act (.openFile n)).andThen fun _ => closing n (body (readlines s))

end Io

variable [PyUnicode]

/-- __init__.py:6-15 `parse`; its prints are acts -/
def parseIo (line : Str) (output : Bool) (legs : Legs) : Io Legs :=
  let p := parse line output legs
  (Io.prints p.out).andThen fun _ =>
    match p.res with
    | .error e => .raise e
    | .ok _ => .ret p.legs

/-- __init__.py:45-46: the loop of `read_file` -/
def parseLinesIo (output : Bool) : List Str → Legs → Io Legs
  | [], legs => .ret legs
  | l :: ls, legs => (parseIo l output legs).andThen fun legs => parseLinesIo output ls legs

/-- __init__.py:40-46 `read_file` -/
def readFileIo (n : Nat) (f : FileObj) (output : Bool) (legs : Legs) : Io Legs :=
  Io.withFile n f fun ls => parseLinesIo output ls legs

/-- __init__.py:53-54: the loop of `read_folder`, at the `n`-th entry; the directory is closed when there are no more -/
def readFilesIo : Nat → List FileObj → Legs → Io Unit
  | _, [], _ => Io.act .closeDir
  | n, f :: fs, legs => (readFileIo n f true legs).andThen fun legs => readFilesIo (n + 1) fs legs

/-- __init__.py:49-54 `read_folder` -/
def readFolderIo (entries : Option (List FileObj)) (legs : Legs) : Io Unit :=
  match entries with
  | none => .raise .osError
  | some fs => (Io.act .openDir).andThen fun _ => readFilesIo 0 fs legs

/-- __init__.py:25-37: the loop of `search` with its counter, then the summary -/
def searchLinesIo (filters : Filters) : List Str → Nat → Io Unit
  | [], count => Io.prints [.summary count filters (count != 0)]
  | l :: ls, count =>
    let r := Record.new.read l
    (Io.prints r.out).andThen fun _ =>
      match r.res with
      | .error e => .raise e
      | .ok false => searchLinesIo filters ls count
      | .ok true =>
        if filters.keep r.obj.raw then
          (Io.prints [.line r.obj.raw]).andThen fun _ => searchLinesIo filters ls (count + 1)
        else searchLinesIo filters ls count

/-- __init__.py:18-37 `search` -/
def searchIo (f : FileObj) (filters : Filters) : Io Unit :=
  Io.withFile 0 f fun ls => searchLinesIo filters ls 0

end Arinc
