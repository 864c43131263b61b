import Verif.Model.Api
import Verif.Model.Json
/-!
# A process using the library

The mutable state the library has outside `Record` objects: the module-level `defaultdict`
`records` (record.py:44-86) and the module-level `defaultdict` `LegTypeDesc`
(decoder.py:356-379). Here both are explicit, with `defaultdict` semantics: subscripting a
missing key inserts it, `in` does not.
-/
namespace Arinc
open Py
variable [PyUnicode]

/-- contents of `records`; `none` is the default value `False` (record.py:40-41) -/
abbrev Reg := List (Str × Option Definition)

/-- `records` after importing the module (record.py:44-86) -/
def initReg : Reg := registry.map (fun p => (p.1, some p.2))

/-- `key in records` -/
def Reg.has (g : Reg) (key : Str) : Bool := (g.lookup key).isSome

/-- `records[key]`: a missing key is inserted with the default -/
def Reg.get (g : Reg) (key : Str) : Option Definition × Reg :=
  match g.lookup key with
  | some v => (v, g)
  | none => (none, g ++ [(key, none)])

/-- record.py:136 on an explicit `records`. If the value is `False`, `hasattr` on line 139 is
    false and `False.read` on line 160 raises AttributeError (the assignments on the way are not
    modelled; `C59` shows this never happens). -/
def Record.readDefinitionG (g : Reg) (self : Record) (line : Str) : Reg × ReadOut :=
  match g.get self.ident with
  | (none, g) => (g, ⟨.error .attributeError, self, []⟩)
  | (some d, g) => (g, self.readWith d line)

/-- record.py:118-164 `Record.read` on an explicit `records` -/
def Record.readG (g : Reg) (self : Record) (line : Str) : Reg × ReadOut :=
  if validate line = false then (g, ⟨.ok false, self, []⟩)
  else
    let self := { self with raw := strip line }
    let identifier_1 := slice line 4 6
    match (Slice.pair 4 12).eval line with
    | .error e => (g, ⟨.error e, self, []⟩)
    | .ok identifier_2 =>
      if g.has identifier_1 then
        Record.readDefinitionG g { self with ident := identifier_1 } line
      else if g.has identifier_2 then
        Record.readDefinitionG g { self with ident := identifier_2 } line
      else (g, ⟨.ok false, self, []⟩)

/-- State of a process: its `Record` objects (by object identity), `records`, `LegTypeDesc`. -/
structure World where
  objs : Nat → Record
  reg : Reg
  legs : Legs

/-- after `import arinc424`; objects not yet created are taken to be fresh -/
def World.init : World := ⟨fun _ => Record.new, initReg, legTypeDesc⟩

/-- One call of the API. -/
inductive Op where
  /-- object `i` := `Record()` -/
  | new (i : Nat)
  /-- `i.read(line)` -/
  | read (i : Nat) (line : Str)
  /-- `i.decode(output)` -/
  | decode (i : Nat) (output : Bool)
  /-- `i.json(output, single_line)` -/
  | json (i : Nat) (output single_line : Bool)
  /-- `parse(line, output)` -/
  | parse (line : Str) (output : Bool)
  /-- `read_file(path, output)` where the path names this -/
  | readFile (f : FileObj) (output : Bool)
  /-- `read_folder(path)` where the path names this -/
  | readFolder (entries : Option (List FileObj))
  /-- `search(path, filters)` -/
  | search (f : FileObj) (filters : Filters)

/-- What the caller sees: value returned or exception, and what was printed. -/
inductive Outcome where
  | none
  | read (res : Except Exc Bool) (out : List Event)
  | decode (res : Except Exc (List Row)) (out : List Event)
  | json (text : Str) (out : List Event)
  | parse (res : Except Exc Bool) (out : List Event)
  | call (res : Except Exc Unit) (out : List Event)
deriving DecidableEq

/-- rebind object `i` -/
def World.set (w : World) (i : Nat) (r : Record) : World :=
  { w with objs := fun j => if j = i then r else w.objs j }

/-- __init__.py:6-15 `parse` on explicit module state -/
def World.parse (w : World) (line : Str) (output : Bool) : World × Outcome :=
  let (g, r) := Record.new.readG w.reg line
  let w := { w with reg := g }
  match r.res with
  | .error e => (w, .parse (.error e) r.out)
  | .ok false => (w, .parse (.ok false) r.out)
  | .ok true =>
    let d := r.obj.decode output w.legs
    let w := { w with legs := d.legs }
    match d.res with
    | .error e => (w, .parse (.error e) (r.out ++ d.out))
    | .ok _ => (w, .parse (.ok true) (r.out ++ d.out))

/-- __init__.py:45-46: the loop of `read_file` on explicit module state -/
def World.parseLines (output : Bool) : List Str → World → World × Except Exc Unit × List Event
  | [], w => (w, .ok (), [])
  | l :: ls, w =>
    match w.parse l output with
    | (w, .parse (.ok _) out) =>
      let (w, res, out') := World.parseLines output ls w
      (w, res, out ++ out')
    | (w, .parse (.error e) out) => (w, .error e, out)
    | (w, _) => (w, .ok (), [])  -- not reached: `World.parse` gives `.parse`

/-- __init__.py:40-46 `read_file` on explicit module state -/
def World.readFile (w : World) (f : FileObj) (output : Bool) : World × Except Exc Unit × List Event :=
  match f.readlines with
  | .error e => (w, .error e, [])
  | .ok ls => World.parseLines output ls w

/-- __init__.py:53-54: the loop of `read_folder` on explicit module state -/
def World.readFiles : List FileObj → World → World × Except Exc Unit × List Event
  | [], w => (w, .ok (), [])
  | f :: fs, w =>
    match w.readFile f true with
    | (w, .ok _, out) =>
      let (w, res, out') := World.readFiles fs w
      (w, res, out ++ out')
    | (w, .error e, out) => (w, .error e, out)

/-- __init__.py:49-54 `read_folder` on explicit module state -/
def World.readFolder (w : World) (entries : Option (List FileObj)) :
    World × Except Exc Unit × List Event :=
  match entries with
  | none => (w, .error .osError, [])
  | some fs => World.readFiles fs w

/-- __init__.py:25-37: the loop of `search` on explicit module state -/
def World.searchLines (filters : Filters) : List Str → Nat → World →
    World × Except Exc Unit × List Event
  | [], count, w => (w, .ok (), [.summary count filters (count != 0)])
  | l :: ls, count, w =>
    let (g, r) := Record.new.readG w.reg l
    let w := { w with reg := g }
    match r.res with
    | .error e => (w, .error e, r.out)
    | .ok false =>
      let (w, res, out) := World.searchLines filters ls count w
      (w, res, r.out ++ out)
    | .ok true =>
      if filters.keep r.obj.raw then
        let (w, res, out) := World.searchLines filters ls (count + 1) w
        (w, res, r.out ++ [.line r.obj.raw] ++ out)
      else
        let (w, res, out) := World.searchLines filters ls count w
        (w, res, r.out ++ out)

/-- __init__.py:18-37 `search` on explicit module state -/
def World.search (w : World) (f : FileObj) (filters : Filters) :
    World × Except Exc Unit × List Event :=
  match f.readlines with
  | .error e => (w, .error e, [])
  | .ok ls => World.searchLines filters ls 0 w

/-- one call -/
def World.step (w : World) : Op → World × Outcome
  | .new i => (w.set i Record.new, .none)
  | .read i line =>
    let (g, r) := (w.objs i).readG w.reg line
    ({ w with reg := g }.set i r.obj, .read r.res r.out)
  | .decode i output =>
    let d := (w.objs i).decode output w.legs
    ({ w with legs := d.legs }, .decode d.res d.out)
  | .json i output single_line =>
    let j := (w.objs i).json output single_line
    (w, .json j.1 j.2)
  | .parse line output => w.parse line output
  | .readFile f output =>
    let (w, res, out) := w.readFile f output
    (w, .call res out)
  | .readFolder entries =>
    let (w, res, out) := w.readFolder entries
    (w, .call res out)
  | .search f filters =>
    let (w, res, out) := w.search f filters
    (w, .call res out)

/-- a sequence of calls: final state, and the outcome of each call -/
def World.run (w : World) : List Op → World × List Outcome
  | [] => (w, [])
  | op :: ops =>
    let (w, o) := w.step op
    let (w, os) := w.run ops
    (w, o :: os)

end Arinc
