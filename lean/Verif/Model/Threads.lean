import Verif.Model.World
/-!
# Threads using the library

The same functions once more, now as programs that show every access to what threads share: the
module-level `defaultdict`s `records` (record.py:44-86) and `LegTypeDesc` (decoder.py:356-379), and
standard output. Between any two of these accesses another thread may run. One `print` is one
access, and so is one operation of a dictionary; subscripting a `defaultdict` with a missing key is
two, since the default is computed by a Python function (decoder.py `def_val`) before it is stored.
`Record` objects are not shared between threads here.
-/
namespace Arinc
open Py

/-- A program that ends with a result or an exception. -/
inductive Prog (α : Type) where
  | done (r : Except Exc α)
  /-- `print(...)` -/
  | print (e : Event) (k : Prog α)
  /-- `v in LegTypeDesc`, with the value if so -/
  | find (v : Str) (k : Option Str → Prog α)
  /-- `LegTypeDesc[v] = s` -/
  | store (v s : Str) (k : Prog α)
  /-- `key in records` -/
  | has (key : Str) (k : Bool → Prog α)
  /-- `records[key]` -/
  | get (key : Str) (k : Option Definition → Prog α)

/-- one program after the other; an exception ends both -/
def Prog.bind {α β : Type} : Prog α → (α → Prog β) → Prog β
  | .done (.ok x), f => f x
  | .done (.error e), _ => .done (.error e)
  | .print e k, f => .print e (k.bind f)
  | .find v k, f => .find v (fun a => (k a).bind f)
  | .store v s k, f => .store v s (k.bind f)
  | .has key k, f => .has key (fun a => (k a).bind f)
  | .get key k, f => .get key (fun a => (k a).bind f)

/-- `try:` the caller catches the exception -/
def Prog.attempt {α : Type} : Prog α → Prog (Except Exc α)
  | .done r => .done (.ok r)
  | .print e k => .print e k.attempt
  | .find v k => .find v (fun a => (k a).attempt)
  | .store v s k => .store v s k.attempt
  | .has key k => .has key (fun a => (k a).attempt)
  | .get key k => .get key (fun a => (k a).attempt)

/-- several prints -/
def emit {α : Type} : List Event → Prog α → Prog α
  | [], k => k
  | e :: es, k => .print e (emit es k)

variable [PyUnicode]

/-- decoder.py:381-389, 5.21 Path and Termination -/
def field_021M (value : Str) : Prog PyVal :=
  let value := strip value
  if value.length = 0 then .done (ret value)
  else if !isAlpha value then .done (.error .valueError)
  else .find value fun
    | some s => .done (ret s)
    | none => .store value unknown (.done (ret unknown))

/-- `field_NNN(value, record)`; all but 5.21 share nothing but standard output (decoder.py) -/
def fieldM (fn : DecFn) (value : Str) (rec : RecInfo) : Prog PyVal :=
  match fn with
  | .f021 => field_021M value
  | fn => emit (runDec fn value rec []).out (.done (runDec fn value rec []).res)

/-- record.py:136-164, the rest of `read` -/
def Record.readDefinitionM (self : Record) (line : Str) : Prog ReadOut :=
  .get self.ident fun
    | none => .done (.ok ⟨.error .attributeError, self, []⟩)
    | some d => emit (self.readWith d line).out (.done (.ok (self.readWith d line)))

/-- record.py:118-164 `Record.read`; the result lists the prints as well -/
def Record.readM (self : Record) (line : Str) : Prog ReadOut :=
  if validate line = false then .done (.ok ⟨.ok false, self, []⟩)
  else
    let self := { self with raw := strip line }
    let identifier_1 := slice line 4 6
    match (Slice.pair 4 12).eval line with
    | .error e => .done (.ok ⟨.error e, self, []⟩)
    | .ok identifier_2 =>
      .has identifier_1 fun b =>
        if b then Record.readDefinitionM { self with ident := identifier_1 } line
        else .has identifier_2 fun b =>
          if b then Record.readDefinitionM { self with ident := identifier_2 } line
          else .done (.ok ⟨.ok false, self, []⟩)

/-- record.py:169-170: the loop adding one row per field -/
def decodeRowsM (rec : RecInfo) : List Field → Prog (List Row)
  | [] => .done (.ok [])
  | f :: fs => (fieldM f.dec f.value rec).bind fun v =>
    (decodeRowsM rec fs).bind fun rows => .done (.ok (⟨f.name, py!"'" ++ f.value ++ py!"'", v⟩ :: rows))

/-- record.py:166-173 `Record.decode` -/
def Record.decodeM (self : Record) (output : Bool) : Prog (List Row) :=
  (decodeRowsM self.info self.fields).bind fun rows =>
    emit (if output then [.table rows] else []) (.done (.ok rows))

/-- __init__.py:6-15 `parse` -/
def parseM (line : Str) (output : Bool) : Prog Bool :=
  (Record.new.readM line).bind fun r =>
    match r.res with
    | .error e => .done (.error e)
    | .ok false => .done (.ok false)
    | .ok true => (r.obj.decodeM output).bind fun _ => .done (.ok true)

/-- __init__.py:45-46: the loop of `read_file` -/
def parseLinesM (output : Bool) : List Str → Prog Unit
  | [] => .done (.ok ())
  | l :: ls => (parseM l output).bind fun _ => parseLinesM output ls

/-- __init__.py:40-46 `read_file` -/
def readFileM (f : FileObj) (output : Bool) : Prog Unit :=
  match f.readlines with
  | .error e => .done (.error e)
  | .ok ls => parseLinesM output ls

/-- __init__.py:53-54: the loop of `read_folder` -/
def readFilesM : List FileObj → Prog Unit
  | [] => .done (.ok ())
  | f :: fs => (readFileM f true).bind fun _ => readFilesM fs

/-- __init__.py:49-54 `read_folder` -/
def readFolderM (entries : Option (List FileObj)) : Prog Unit :=
  match entries with
  | none => .done (.error .osError)
  | some fs => readFilesM fs

/-- __init__.py:25-37: the loop of `search` with its counter, then the summary -/
def searchLinesM (filters : Filters) : List Str → Nat → Prog Unit
  | [], count => .print (.summary count filters (count != 0)) (.done (.ok ()))
  | l :: ls, count => (Record.new.readM l).bind fun r =>
    match r.res with
    | .error e => .done (.error e)
    | .ok false => searchLinesM filters ls count
    | .ok true =>
      if filters.keep r.obj.raw then .print (.line r.obj.raw) (searchLinesM filters ls (count + 1))
      else searchLinesM filters ls count

/-- __init__.py:18-37 `search` -/
def searchM (f : FileObj) (filters : Filters) : Prog Unit :=
  match f.readlines with
  | .error e => .done (.error e)
  | .ok ls => searchLinesM filters ls 0

/-- What a call returns or raises. -/
inductive Result where
  | none
  | bool (r : Except Exc Bool)
  | rows (r : Except Exc (List Row))
  | text (s : Str)
  | unit (r : Except Exc Unit)
deriving DecidableEq

/-- a call of a thread, whose objects these are; the thread goes on after an exception -/
def callM (objs : Nat → Record) : Op → Prog ((Nat → Record) × Result)
  | .new i => .done (.ok (fun j => if j = i then Record.new else objs j, .none))
  | .read i line => ((objs i).readM line).bind fun r =>
    .done (.ok (fun j => if j = i then r.obj else objs j, .bool r.res))
  | .decode i output => ((objs i).decodeM output).attempt.bind fun r => .done (.ok (objs, .rows r))
  | .json i output single_line =>
    emit ((objs i).json output single_line).2 (.done (.ok (objs, .text ((objs i).json output single_line).1)))
  | .parse line output => (parseM line output).attempt.bind fun r => .done (.ok (objs, .bool r))
  | .readFile f output => (readFileM f output).attempt.bind fun r => .done (.ok (objs, .unit r))
  | .readFolder entries => (readFolderM entries).attempt.bind fun r => .done (.ok (objs, .unit r))
  | .search f filters => (searchM f filters).attempt.bind fun r => .done (.ok (objs, .unit r))

/-- the calls of a thread one after the other, and their results -/
def threadM (objs : Nat → Record) : List Op → Prog (List Result)
  | [] => .done (.ok [])
  | op :: ops => (callM objs op).bind fun x =>
    (threadM x.1 ops).bind fun rs => .done (.ok (x.2 :: rs))

/-- Threads (by number), what they share, and what was printed by which thread. -/
structure Machine where
  threads : Nat → Prog (List Result)
  legs : Legs
  reg : Reg
  log : List (Nat × Event)

omit [PyUnicode] in
/-- `d[key] = value` -/
def setItem (d : Legs) (key value : Str) : Legs :=
  match d with
  | [] => [(key, value)]
  | (k, v) :: d => if k = key then (k, value) :: d else (k, v) :: setItem d key value

omit [PyUnicode] in
/-- thread `i` goes on with `p` -/
def Machine.go (m : Machine) (i : Nat) (p : Prog (List Result)) : Machine :=
  { m with threads := fun j => if j = i then p else m.threads j }

omit [PyUnicode] in
/-- one step of thread `i` -/
def Machine.step (m : Machine) (i : Nat) : Machine :=
  match m.threads i with
  | .done _ => m
  | .print e k => { m with log := m.log ++ [(i, e)] }.go i k
  | .find v k => m.go i (k (m.legs.lookup v))
  | .store v s k => { m with legs := setItem m.legs v s }.go i k
  | .has key k => m.go i (k (m.reg.has key))
  | .get key k => { m with reg := (m.reg.get key).2 }.go i (k (m.reg.get key).1)

/-- after `import arinc424`, thread `i` about to make the calls `calls i` on objects of its own -/
def Machine.start (calls : Nat → List Op) : Machine :=
  ⟨fun i => threadM (fun _ => Record.new) (calls i), legTypeDesc, initReg, []⟩

/-- the steps are made by these threads, in this order -/
def Machine.run (m : Machine) (schedule : List Nat) : Machine := schedule.foldl Machine.step m

end Arinc
