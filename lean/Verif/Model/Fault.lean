import Verif.Model.Api
import Verif.Model.Stdout
/-!
# Model: exceptions with their arguments

The functions that can raise, once more, with the arguments of the exceptions. That they raise the same exceptions and
return the same values as the functions in `Model/Decoder.lean`, `Model/Record.lean` and `Model/Api.lean` is proved
(`C108_same`). Not modelled: the messages of `OSError`, `UnicodeDecodeError`, `IndexError` and `AttributeError`.
`printable` is `str.isprintable` of the characters above 127, which `repr` depends on.
-/
namespace Arinc
open Py
variable [PyUnicode]

/-- an exception -/
inductive Fault where
  /-- `ValueError(*args)` -/
  | value (args : List Str)
  /-- `SystemExit(None)`, raised by `exit()` -/
  | exit
  /-- any other; arguments not modelled -/
  | other (e : Exc)
deriving DecidableEq, Repr

/-- the class of an exception -/
def Fault.exc : Fault → Exc
  | .value _ => .valueError
  | .exit => .systemExit
  | .other e => e

/-- `str(e)` (CPython, `BaseException_str`): the argument, or the `repr` of the tuple of arguments -/
def Fault.text (printable : Nat → Bool) : Fault → Option Str
  | .value [] => some []
  | .value [a] => some a
  | .value as => some (py!"(" ++ reprElems printable as ++ py!")")
  | .exit => some (py!"None")
  | .other _ => none

/-- the exit status of a program that does not catch the exception (CPython, `handle_system_exit`: 0 for `None`) -/
def Fault.status : Fault → Nat
  | .exit => 0
  | _ => 1

/-- `raise ValueError(*args)` -/
def raised (args : List Str) : Except Fault PyVal := .error (.value args)

/-- `return` of a string -/
def given (s : Str) : Except Fault PyVal := .ok (.str s)

/-- `int(s)` with its message -/
def pyIntF (printable : Nat → Bool) (s : Str) : Except Fault Int :=
  match pyInt s with
  | .ok i => .ok i
  | .error _ => .error (.value [intMessage printable s])

/-- `float(s)` with its message (CPython, `PyFloat_FromString`: `%R`) -/
def pyFloatF (printable : Nat → Bool) (s : Str) : Except Fault Dbl :=
  match pyFloat s with
  | .ok x => .ok x
  | .error _ => .error (.value [py!"could not convert string to float: " ++ reprStr printable s])

/-- `s[i]` -/
def indexF (s : Str) (i : Nat) : Except Fault Str :=
  match index s i with
  | .ok c => .ok c
  | .error e => .error (.other e)

/-- decoder.py:25-31 -/
def field_002F (value : Str) : Except Fault PyVal :=
  if value = py!"S" then given (py!"Standard")
  else if value = py!"T" then given (py!"Tailored")
  else raised [py!"Invalid Record Type", value]

/-- decoder.py:198-202 -/
def field_008F (value : Str) : Except Fault PyVal :=
  if isAlnum (strip value) then given value else raised [py!"Route Identifier not alphanumeric", value]

/-- decoder.py:343-352 -/
def field_020F (value : Str) : Except Fault PyVal :=
  if value = py!"R" then given (py!"Right")
  else if value = py!"L" then given (py!"Left")
  else if value = py!"E" ∨ value = py!" " then given (py!"Either")
  else raised [py!"Invalid Turn Direction:", value]

/-- decoder.py:381-389 -/
def field_021F (value : Str) (legs : Legs) : Except Fault PyVal :=
  let value := strip value
  if value.length = 0 then given value
  else if !isAlpha value then raised [py!"Invalid Path and Termination:", value]
  else match legs.lookup value with
    | some s => given s
    | none => given unknown

/-- decoder.py:393-398 -/
def field_022F (value : Str) : Except Fault PyVal :=
  let value := strip value
  if value.length > 0 then
    if isAlpha value = false then raised [py!"Invalid Turn Direction Valid (TDV):", value] else given value
  else given value

/-- decoder.py:402-407, 411-416, 420-425: three functions that differ in the text -/
def shortF (text value : Str) : Except Fault PyVal :=
  let value := strip value
  if value.length > 0 then
    if isAlnum value = false ∨ value.length > 4 then raised [text, value] else given value
  else given value

/-- decoder.py:429-443 -/
def field_026F (printable : Nat → Bool) (value : Str) : Except Fault PyVal :=
  let value := strip value
  if value.length = 0 then given value
  else if isAlnum value = false ∨ value.length > 4 then raised [py!"Invalid Outbound Magnetic Course", value]
  else if endsWithChar value 84 then given value
  else do
    let x ← pyFloatF printable value
    given ((x.divNat 10).fmt 1)

/-- decoder.py:447-456 -/
def field_027F (printable : Nat → Bool) (value : Str) : Except Fault PyVal :=
  let value := strip value
  if value.length > 0 then do
    let v0 ← indexF value 0
    if v0 = py!"T" then
      let x ← pyFloatF printable (sliceFrom value 1)
      given ((x.divNat 10).fmt 1 ++ py!" min")
    else
      let x ← pyFloatF printable value
      given ((x.divNat 10).fmt 1 ++ py!" nm")
  else given value

/-- decoder.py:480-482 -/
def field_032F (printable : Nat → Bool) (value : Str) : Except Fault PyVal := do
  let yy ← pyIntF printable (slice value 0 2)
  let year := if yy > 50 then py!"19" ++ slice value 0 2 else py!"20" ++ slice value 0 2
  given (year ++ py!", Release " ++ sliceFrom value 2)

/-- decoder.py:491-500 -/
def field_034F (printable : Nat → Bool) (value : Str) : Except Fault PyVal :=
  let value := strip value
  if value.length > 0 then
    if isNumeric value = false then .error .exit
    else do
      let x ← pyFloatF printable value
      given ((x.divNat 100).fmt 2)
  else given value

/-- decoder.py:554-555 -/
def field_039F (printable : Nat → Bool) (value : Str) : Except Fault PyVal :=
  if strip value = [] then given value
  else do
    let i ← pyIntF printable (sliceFrom value 1)
    let v0 ← indexF value 0
    given (fmt03 i ++ py!" " ++ v0)

/-- decoder.py:635-639, 1045-1049 -/
def freqF (printable : Nat → Bool) (value : Str) : Except Fault PyVal :=
  if isNumeric value then do
    let x ← pyFloatF printable value
    given ((x.divNat 100).fmt 2)
  else given (py!"BAD VALUE")

/-- decoder.py:735-739, 1281-1285 -/
def tenthF (printable : Nat → Bool) (value : Str) : Except Fault PyVal :=
  if isNumeric value then do
    let x ← pyFloatF printable value
    .ok (.float (x.divNat 10))
  else given (py!"BAD VALUE")

/-- decoder.py:795-801 -/
def field_072F (value : Str) : Except Fault PyVal :=
  if isNumeric value then given (value ++ py!" knots (IAS)")
  else if strip value = [] then given value
  else raised [py!"Invalid speed" ++ value]

/-- decoder.py:850-864 -/
def field_082F (value : Str) : Except Fault PyVal := do
  let v1 ← indexF value 1
  if v1 = py!"B" then given (py!"HI and LO Altitude")
  else if v1 = py!"H" then given (py!"HI Altitude")
  else if v1 = py!"L" then given (py!"LO Altitude")
  else if v1 = py!" " then given (py!"Terminal Use Only")
  else do
    let v0 ← indexF value 0
    if v0 = py!"R" then given (py!"RNAV") else raised [py!"Invalid Waypoint Usage: '" ++ value ++ py!"'"]

/-- decoder.py:1102-1109 -/
def field_108F (value : Str) : Except Fault PyVal :=
  if value = py!"Y" then given (py!"Official")
  else if value = py!"N" then given (py!"Non-official")
  else raised [py!"Invalid IFR Capability"]

/-- decoder.py:1513-1519; the message is that of `str.index` -/
def field_178F (value : Str) : Except Fault PyVal := do
  let v0 ← indexF value 0
  if isAlpha v0 && isNumeric (sliceFrom value 1) then
    match upperIndex v0 with
    | .error _ => raised [py!"substring not found"]
    | .ok i =>
      let x := i - 12
      let y := if x ≥ 0 then py!"GMT +" ++ intStr x else py!"GMT -" ++ intStr x
      given (y ++ py!":" ++ sliceFrom value 1)
  else given (unsupported value)

/-- decoder.py:1547-1556 -/
def field_182F (value : Str) : Except Fault PyVal :=
  if value = py!"G" then given (py!"Guard (radio receives on this freq)")
  else if value = py!"T" then given (py!"Transmit (radio transmits on this freq)")
  else if value = py!" " then given (py!"Guards and Transmits")
  else raised [py!"bad guard/transmit"]

/-- decoder.py:2038-2041 -/
def field_269F (printable : Nat → Bool) (value : Str) : Except Fault PyVal :=
  if strip value ≠ [] then do
    let x ← pyFloatF printable value
    .ok (.float (x.divNat 10))
  else given value

/-- decoder.py:2045-2058 -/
def field_270F (value : Str) : Except Fault PyVal :=
  if value = py!"I" then given (py!"ILS or MLS Glideslope")
  else if value = py!"R" then given (py!"RNAV Procedure")
  else if value = py!"V" then given (py!"Visual Glideslope Indicator (VGSI)")
  else if value = py!"D" then given (py!"Default Value (40 or 50 feet)")
  else if value = py!" " then given value
  else raised [py!"Bad TCH Value Indicator: " ++ value]

/-- `decode_fn(value, record)` (decoder.py:13-14); the functions not listed raise no `ValueError` -/
def runFault (printable : Nat → Bool) (fn : DecFn) (value : Str) (rec : RecInfo) (legs : Legs) : Except Fault PyVal :=
  match fn with
  | .f002 => field_002F value
  | .f008 => field_008F value
  | .f020 => field_020F value
  | .f021 => field_021F value legs
  | .f022 => field_022F value
  | .f023 => shortF (py!"Invalid Recommended NAVAID (RECD NAV):") value
  | .f024 => shortF (py!"Invalid Theta:") value
  | .f025 => shortF (py!"Invalid Rho:") value
  | .f026 => field_026F printable value
  | .f027 => field_027F printable value
  | .f032 => field_032F printable value
  | .f034 => field_034F printable value
  | .f039 => field_039F printable value
  | .f045 | .f103 => freqF printable value
  | .f062 | .f135 => tenthF printable value
  | .f072 => field_072F value
  | .f082 => field_082F value
  | .f108 => field_108F value
  | .f178 => field_178F value
  | .f182 => field_182F value
  | .f269 => field_269F printable value
  | .f270 => field_270F value
  | fn => (runDec fn value rec legs).res.mapError .other

/-- record.py:169-170: the loop of `decode`, up to the first exception -/
def decodeRowsF (printable : Nat → Bool) (rec : RecInfo) : List Field → Legs → Except Fault (List Row)
  | [], _ => .ok []
  | f :: fs, legs =>
    match runFault printable f.dec f.value rec legs with
    | .error e => .error e
    | .ok v =>
      (decodeRowsF printable rec fs (runDec f.dec f.value rec legs).legs).map
        (⟨f.name, py!"'" ++ f.value ++ py!"'", v⟩ :: ·)

/-- record.py:166-173 -/
def Record.decodeF (printable : Nat → Bool) (self : Record) (legs : Legs) : Except Fault (List Row) :=
  decodeRowsF printable self.info self.fields legs

/-- the arguments of the exceptions in the last `case` of `read`: EnrouteAirways.py:30, EnrouteAirwaysRestriction.py:29, 39,
    EnrouteCommunications.py:28, HeliportCommunications.py:28, PathPoint.py:26 -/
def unknownApplication (ident line : Str) : Fault :=
  if ident = py!"EU" then .value [py!"Unknown Restricted Airway Type"]
  else if ident = py!"EV" then .value [py!"Unknown Application\n" ++ slice line 56 57 ++ py!"\n" ++ line]
  else if ident = py!"PP" then .value [py!"bad path point", slice line 27 28]
  else .value [py!"Unknown Application Type"]

/-- record.py:118-164. The exceptions that `read` raises are all raised in the last `case` of a `read` method (C09; the
    message of record.py:157 is never used). -/
def Record.readF (self : Record) (line : Str) : Except Fault Bool :=
  match (self.read line).res with
  | .ok b => .ok b
  | .error .valueError => .error (unknownApplication (self.read line).obj.ident line)
  | .error e => .error (.other e)

/-- __init__.py:6-15 `parse` -/
def parseF (printable : Nat → Bool) (line : Str) (legs : Legs) : Except Fault Bool :=
  match Record.new.readF line with
  | .error e => .error e
  | .ok false => .ok false
  | .ok true =>
    match (Record.new.read line).obj.decodeF printable legs with
    | .error e => .error e
    | .ok _ => .ok true

/-- __init__.py:45-46: the loop of `read_file` -/
def parseLinesF (printable : Nat → Bool) : List Str → Legs → Except Fault Unit
  | [], _ => .ok ()
  | l :: ls, legs =>
    match parseF printable l legs with
    | .error e => .error e
    | .ok _ => parseLinesF printable ls (parse l true legs).legs

/-- __init__.py:40-46 `read_file` -/
def readFileF (printable : Nat → Bool) (f : FileObj) (legs : Legs) : Except Fault Unit :=
  match f.readlines with
  | .error e => .error (.other e)
  | .ok ls => parseLinesF printable ls legs

/-- the exit status of a program that calls `read_file` once -/
def readFileStatus (printable : Nat → Bool) (f : FileObj) : Nat :=
  match readFileF printable f legTypeDesc with
  | .ok () => 0
  | .error e => e.status

/-- __init__.py:53-54: the loop of `read_folder`. The table of leg types is as the other version leaves it. -/
def readFilesF (printable : Nat → Bool) : List FileObj → Legs → Except Fault Unit
  | [], _ => .ok ()
  | f :: fs, legs =>
    match readFileF printable f legs with
    | .error e => .error e
    | .ok _ => readFilesF printable fs (readFile f true legs).legs

/-- __init__.py:49-54 `read_folder`; `none`: `os.scandir` raises `OSError` -/
def readFolderF (printable : Nat → Bool) (entries : Option (List FileObj)) (legs : Legs) : Except Fault Unit :=
  match entries with
  | none => .error (.other .osError)
  | some fs => readFilesF printable fs legs

/-- __init__.py:25-37: the loop of `search`. It reads each line and decodes none, so that the filters do not matter to its
    exceptions. -/
def searchLinesF : List Str → Except Fault Unit
  | [] => .ok ()
  | l :: ls =>
    match Record.new.readF l with
    | .error e => .error e
    | .ok _ => searchLinesF ls

/-- __init__.py:18-37 `search` -/
def searchF (f : FileObj) : Except Fault Unit :=
  match f.readlines with
  | .error e => .error (.other e)
  | .ok ls => searchLinesF ls

/-- the exit status of a program that calls `read_folder` once -/
def readFolderStatus (printable : Nat → Bool) (entries : Option (List FileObj)) : Nat :=
  match readFolderF printable entries legTypeDesc with
  | .ok () => 0
  | .error e => e.status

/-- the exit status of a program that calls `search` once -/
def searchStatus (f : FileObj) : Nat :=
  match searchF f with
  | .ok () => 0
  | .error e => e.status

end Arinc
