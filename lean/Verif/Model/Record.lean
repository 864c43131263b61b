import Verif.Model.Decoder
import Verif.Model.Definitions
/-!
# record.py: class `Record`
-/
namespace Arinc
open Py
variable [PyUnicode]

/-- Value of a slice expression on the record text `r`. -/
def Slice.eval (r : Str) : Slice → Except Exc Str
  | .at i => index r i
  | .range lo hi => .ok (slice r lo hi)
  | .pair i j => do
    let a ← index r i
    let b ← index r j
    .ok (a ++ b)

/-- Evaluate the list of `Field(...)` of a `read_*` method on `r`, left to right. -/
def readLayout (r : Str) : Layout → Except Exc (List Field)
  | [] => .ok []
  | s :: rest => do
    let v ← s.slice.eval r
    let fs ← readLayout r rest
    .ok (⟨s.name, v, s.dec⟩ :: fs)

/-- `match application: case ...` of the `read` methods in definitions/*.py -/
def Branch.run (line : Str) : Branch → Except Exc (List Field)
  | .always l => readLayout line l
  | .onApp sel cases other => do
    let app ← sel.eval line
    match cases.lookup app with
    | some l => readLayout line l
    | none =>
      match other with
      | .empty => .ok []
      | .raise => .error .valueError
      | .layout l => readLayout line l

/-- `definition.read(line, primary)` (definitions/*.py) -/
def Definition.read (d : Definition) (line : Str) (primary : Bool) : Except Exc (List Field) :=
  if primary then d.onPrimary.run line else d.onCont.run line

/-- record.py:89-96, the attributes of a `Record`; `definition = none` is the initial `-1` -/
structure Record where
  ident : Str
  raw : Str
  continuation : Str
  fields : List Field
  definition : Option Definition
deriving DecidableEq, Repr

/-- record.py:91-96 `Record()` -/
def Record.new : Record := ⟨[], [], [], [], none⟩

/-- record.py:98-101 -/
def Record.primary (self : Record) : Bool :=
  match self.definition with
  | none => false
  | some _ => self.continuation == py!"0" || self.continuation == py!"1"

/-- record.py:103-106 -/
def Record.hasCont (self : Record) : Bool :=
  if self.primary = false then false else self.continuation == py!"1"

/-- record.py:108-116 -/
def validate (line : Str) : Bool :=
  let line := strip line
  if startsWithEither line 83 84 = false then false
  else if line.length ≠ 132 then false
  else if isNumeric (lastN line 9) = false then false
  else true

/-- Effect of `Record.read`: result or exception, the object afterwards, prints. -/
structure ReadOut where
  res : Except Exc Bool
  obj : Record
  out : List Event

/-- `repr` of a list of strings without quotes or escapes (record.py:153, only reachable if
    the test on line 151 could succeed) -/
def listRepr (ss : List Str) : Str :=
  py!"[" ++ (py!", ").intercalate (ss.map fun s => py!"'" ++ s ++ py!"'") ++ py!"]"

/-- record.py:159-164 -/
def Record.readFields (self : Record) (d : Definition) (line : Str) : ReadOut :=
  match d.read line self.primary with
  | .error e => ⟨.error e, self, []⟩
  | .ok fields =>
    let self := { self with fields := fields }
    if fields.isEmpty then ⟨.ok false, self, []⟩ else ⟨.ok true, self, []⟩

/-- record.py:147-157, then the rest of `read`. Line 151 is
    `if (application_type not in self.definition.continuations) and not 'J':` -/
def Record.checkApplication (self : Record) (d : Definition) (line : Str) : ReadOut :=
  if self.primary = false then
    match d.appIdx with
    | some _ =>
      match d.appType with
      | none => ⟨.error .attributeError, self, []⟩
      | some sl =>
        match sl.eval self.raw with
        | .error e => ⟨.error e, self, []⟩
        | .ok application_type =>
          match d.continuations, d.name with
          | some cs, some nm =>
            if !cs.contains application_type && !truthy (py!"J") then
              ⟨.ok false, self,
               [.line (py!"Unsupported " ++ nm ++ py!" Application Type: \"" ++ application_type
                  ++ py!"\""),
                .line (py!"Supported application types for " ++ nm ++ py!" are: " ++ listRepr cs),
                .line (py!"Record: " ++ self.raw)]⟩
            else self.readFields d line
          | _, _ => ⟨.error .attributeError, self, []⟩
    | none => ⟨.error .valueError, self, []⟩
  else self.readFields d line

/-- record.py:136-145 once `records[self.ident]` is known, then the rest of `read` -/
def Record.readWith (self : Record) (d : Definition) (line : Str) : ReadOut :=
  let self := { self with definition := some d }
  match d.contIdx with
  | some k =>
    match index self.raw k with
    | .error e => ⟨.error e, self, []⟩
    | .ok c =>
      let self := { self with continuation := c }
      if isAlnum c = false then
        match d.name with
        | none => ⟨.error .attributeError, self, []⟩
        | some nm =>
          ⟨.ok false, self,
           [.line (py!"Unsupported " ++ nm ++ py!" Continuation Record Number: \"" ++ c ++ py!"\""),
            .line (py!"Valid Continuation Record Numbers are 0, 1, 2 (through 9) A, B, C (through Z)"),
            .line (py!"Record: " ++ self.raw)]⟩
      else self.checkApplication d line
  | none => self.readFields d line

/-- record.py:136, then the rest of `read` -/
def Record.readDefinition (self : Record) (line : Str) : ReadOut :=
  match registry.lookup self.ident with
  | none => ⟨.error .attributeError, self, []⟩  -- `False.read`; `self.ident` is a key here
  | some d => self.readWith d line

/-- `key in records` -/
def inRegistry (key : Str) : Bool := (registry.lookup key).isSome

/-- record.py:118-164 `Record.read` -/
def Record.read (self : Record) (line : Str) : ReadOut :=
  if validate line = false then ⟨.ok false, self, []⟩
  else
    let self := { self with raw := strip line }
    let identifier_1 := slice line 4 6
    match (Slice.pair 4 12).eval line with
    | .error e => ⟨.error e, self, []⟩
    | .ok identifier_2 =>
      if inRegistry identifier_1 then
        Record.readDefinition { self with ident := identifier_1 } line
      else if inRegistry identifier_2 then
        Record.readDefinition { self with ident := identifier_2 } line
      else ⟨.ok false, self, []⟩

/-- Effect of `Record.decode`: rows of the returned table or exception, prints, new
    `LegTypeDesc`. -/
structure DecodeOut where
  res : Except Exc (List Row)
  out : List Event
  legs : Legs

/-- record.py:169-170: the loop adding one row per field -/
def decodeRows (rec : RecInfo) : List Field → Legs → DecodeOut
  | [], legs => ⟨.ok [], [], legs⟩
  | f :: fs, legs =>
    let d := runDec f.dec f.value rec legs
    match d.res with
    | .error e => ⟨.error e, d.out, d.legs⟩
    | .ok v =>
      let rest := decodeRows rec fs d.legs
      ⟨rest.res.map (⟨f.name, py!"'" ++ f.value ++ py!"'", v⟩ :: ·), d.out ++ rest.out, rest.legs⟩

/-- the part of the record passed to the decoders that they use -/
def Record.info (self : Record) : RecInfo := ⟨self.ident, self.raw⟩

/-- record.py:166-173 `Record.decode`; returns the rows of the table -/
def Record.decode (self : Record) (output : Bool) (legs : Legs) : DecodeOut :=
  let d := decodeRows self.info self.fields legs
  match d.res with
  | .error e => ⟨.error e, d.out, d.legs⟩
  | .ok rows => ⟨.ok rows, if output then d.out ++ [.table rows] else d.out, d.legs⟩

end Arinc
