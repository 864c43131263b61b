import Verif.Model.Tables
/-!
# decoder.py, function by function

Each `field_NNN` takes the raw `value`. The `record` argument is passed only to the two
functions that look at it (`field_007`: `record.ident`; `field_034`: `record.ident`,
`record.raw`). Exceptions are values; their messages are in `Model/Fault.lean`. Functions that print or
touch the module-level table `LegTypeDesc` have a richer result type (`DecOut`).
-/
namespace Arinc
open Py
variable [PyUnicode]

/-- The module-level `LegTypeDesc` (a `defaultdict`), decoder.py:356-379: the entries it
    holds now. Looking up a missing key inserts it. -/
abbrev Legs := List (Str × Str)

/-- Effect of calling a decoder: result or exception, prints, new `LegTypeDesc`. -/
structure DecOut where
  res : Except Exc PyVal
  out : List Event
  legs : Legs

/-- decoder.py:20-21 `def_val` -/
def unknown : Str := py!"<UNKNOWN>"

/-- `d[k]` on a local `defaultdict(def_val)` with the given entries -/
def lookupD (t : List (Str × Str)) (k : Str) : Str :=
  match t.lookup k with
  | some v => v
  | none => unknown

/-- `return` of a string -/
def ret (s : Str) : Except Exc PyVal := .ok (.str s)

/-- decoder.py:25-31, 5.2 Record Type -/
def field_002 (value : Str) : Except Exc PyVal :=
  if value = py!"S" then ret (py!"Standard")
  else if value = py!"T" then ret (py!"Tailored")
  else .error .valueError

/-- decoder.py:35-58, 5.3 Customer / Area Code (`case _` returns '<UNKNOWN>') -/
def field_003 (value : Str) : Except Exc PyVal :=
  match t003.lookup value with
  | some s => ret s
  | none => ret (py!"<UNKNOWN>")

/-- decoder.py:62-109, 5.4 & 5.5 Section Code & Subsection Code -/
def field_004 (value : Str) : Except Exc PyVal :=
  if strip value = [] then ret value
  else ret (lookupD t004 value)

/-- decoder.py:119-193: the entries of `d` chosen by `record.ident` -/
def routeTypes (ident : Str) : List (Str × Str) :=
  if ident = py!"ER" then t007_1
  else if ident = py!"ET" then t007_2
  else if ident = py!"PD" ∨ ident = py!"HD" then t007_3
  else if ident = py!"PE" ∨ ident = py!"HE" then t007_4
  else if ident = py!"PF" ∨ ident = py!"HF" then t007_5
  else []

/-- decoder.py:118-194, 5.7 Route Type -/
def field_007 (value : Str) (ident : Str) : Except Exc PyVal :=
  let d := routeTypes ident
  ret (if lookupD d value ≠ py!"bad value" then lookupD d value else value ++ py!" - BAD VALUE")

/-- decoder.py:198-202, 5.8 Route Identifier -/
def field_008 (value : Str) : Except Exc PyVal :=
  if isAlnum (strip value) then ret value else .error .valueError

/-- decoder.py:206-208, 5.9 SID/STAR Route Identifier (falls off the end: `None`) -/
def field_009 (value : Str) : Except Exc PyVal :=
  if isAlnum (strip value) then ret value else .ok .none

/-- decoder.py:212-213, 5.10 Approach Route Identifier -/
def field_010 (value : Str) : Except Exc PyVal := do
  let v0 ← index value 0
  ret (py!"Approach: " ++ v0 ++ py!", Runway: " ++ slice value 1 4)

/-- decoder.py:222-233, 5.12 Sequence Number -/
def field_012 (value : Str) : Except Exc PyVal :=
  let n := (strip value).length
  if n = 1 then ret (py!"MSA Table, TAA Table, Cruise Table - Sequence No. " ++ value)
  else if n = 2 then
    ret (py!"VHF Navaid Limitation Continuation Records - Sequence No. " ++ value)
  else if n = 3 then ret (py!"SID/STAR/Approach and Company Routes - Sequence No. " ++ value)
  else if n = 4 then
    ret (py!"Enroute Airways, Preferred Routes, FIR/UIR, and Restrictive Airspace - Sequence No. "
      ++ value)
  else ret value

/-- decoder.py:246-253, 5.16 Continuation Record Number -/
def field_016 (value : Str) : Except Exc PyVal :=
  if value = py!"0" then ret (py!"Primary Record")
  else if value = py!"1" then ret (py!"Primary Record (with Cont.)")
  else ret (value ++ py!" - Continuation")

/-- what one `match value[i]` of `field_017` writes: the text and a newline, or nothing -/
def writeCase (t : List (Str × Str)) (c : Str) : Str :=
  match t.lookup c with
  | some s => s ++ [10]
  | none => []

/-- decoder.py:257-329, 5.17 Waypoint Description Code -/
def field_017 (value : Str) : Except Exc PyVal := do
  let v0 ← index value 0
  let s := writeCase t017_0 v0
  let v1 ← index value 1
  let s := s ++ writeCase t017_1 v1
  let v2 ← index value 2
  let s := s ++ writeCase t017_2 v2
  let v3 ← index value 3
  let s := s ++ writeCase t017_3 v3
  ret (strip s)

/-- decoder.py:343-352, 5.20 Turn Direction -/
def field_020 (value : Str) : Except Exc PyVal :=
  if value = py!"R" then ret (py!"Right")
  else if value = py!"L" then ret (py!"Left")
  else if value = py!"E" ∨ value = py!" " then ret (py!"Either")
  else .error .valueError

/-- decoder.py:381-389, 5.21 Path and Termination. `LegTypeDesc[value]` inserts a missing
    key with the default. -/
def field_021 (value : Str) (legs : Legs) : DecOut :=
  let value := strip value
  if value.length = 0 then ⟨ret value, [], legs⟩
  else if !isAlpha value then ⟨.error .valueError, [], legs⟩
  else match legs.lookup value with
    | some s => ⟨ret s, [], legs⟩
    | none => ⟨ret unknown, [], legs ++ [(value, unknown)]⟩

/-- decoder.py:393-398, 5.22 Turn Direction Valid -/
def field_022 (value : Str) : Except Exc PyVal :=
  let value := strip value
  if value.length > 0 then
    if isAlpha value = false then .error .valueError else ret value
  else ret value

/-- decoder.py:402-407, 5.23 Recommended NAVAID -/
def field_023 (value : Str) : Except Exc PyVal :=
  let value := strip value
  if value.length > 0 then
    if isAlnum value = false ∨ value.length > 4 then .error .valueError else ret value
  else ret value

/-- decoder.py:411-416, 5.24 Theta -/
def field_024 (value : Str) : Except Exc PyVal :=
  let value := strip value
  if value.length > 0 then
    if isAlnum value = false ∨ value.length > 4 then .error .valueError else ret value
  else ret value

/-- decoder.py:420-425, 5.25 Rho -/
def field_025 (value : Str) : Except Exc PyVal :=
  let value := strip value
  if value.length > 0 then
    if isAlnum value = false ∨ value.length > 4 then .error .valueError else ret value
  else ret value

/-- decoder.py:429-443, 5.26 Outbound Magnetic Course -/
def field_026 (value : Str) : Except Exc PyVal :=
  let value := strip value
  if value.length = 0 then ret value
  else if isAlnum value = false ∨ value.length > 4 then .error .valueError
  else if endsWithChar value 84 then ret value
  else do
    let x ← pyFloat value
    ret ((x.divNat 10).fmt 1)

/-- decoder.py:447-456, 5.27 Route Distance From, Holding Distance/Time -/
def field_027 (value : Str) : Except Exc PyVal :=
  let value := strip value
  if value.length > 0 then do
    let v0 ← index value 0
    if v0 = py!"T" then
      let x ← pyFloat (sliceFrom value 1)
      ret ((x.divNat 10).fmt 1 ++ py!" min")
    else
      let x ← pyFloat value
      ret ((x.divNat 10).fmt 1 ++ py!" nm")
  else ret value

/-- the expression `value.lstrip('0') + " ft" if value.isnumeric() else value`, which is the
    body of fifteen functions -/
def feet (value : Str) : Except Exc PyVal :=
  if isNumeric value then ret (lstripZeros value ++ py!" ft") else ret value

/-- decoder.py:465-466, 5.29 Altitude Description -/
def field_029 (value : Str) : Except Exc PyVal := feet value

/-- decoder.py:470-471, 5.30 Altitude/Minimum Altitude -/
def field_030 (value : Str) : Except Exc PyVal := feet value

/-- decoder.py:480-482, 5.32 Cycle Date -/
def field_032 (value : Str) : Except Exc PyVal := do
  let yy ← pyInt (slice value 0 2)
  let year := if yy > 50 then py!"19" ++ slice value 0 2 else py!"20" ++ slice value 0 2
  ret (year ++ py!", Release " ++ sliceFrom value 2)

/-- decoder.py:491-500, 5.34 VOR/NDB Frequency: prints two lines and calls `exit()` on a
    non-numeric value -/
def field_034 (value : Str) (ident raw : Str) : Except Exc PyVal × List Event :=
  let value := strip value
  if value.length > 0 then
    if isNumeric value = false then
      (.error .systemExit,
       [.line (py!"Unsupported VOR/NDB Frequency: \"" ++ value ++ py!"\""),
        .line (py!"from record type \"" ++ ident ++ py!"\": \"" ++ raw ++ py!"\"")])
    else
      ((do let x ← pyFloat value; ret ((x.divNat 100).fmt 2)), [])
  else (ret value, [])

/-- `"{:03}".format(i)` -/
def fmt03 (i : Int) : Str :=
  if i < 0 then 45 :: zfill 2 (natStr i.natAbs) else zfill 3 (natStr i.natAbs)

/-- decoder.py:554-555, 5.39 Magnetic Variation -/
def field_039 (value : Str) : Except Exc PyVal :=
  if strip value = [] then ret value
  else do
    let i ← pyInt (sliceFrom value 1)
    let v0 ← index value 0
    ret (fmt03 i ++ py!" " ++ v0)

/-- decoder.py:569-621, 5.42 Waypoint Type -/
def field_042 (value : Str) : Except Exc PyVal := do
  let v0 ← index value 0
  if v0 = py!"N" then ret (py!"NDB Navaid as Waypoint" ++ sliceFrom value 1)
  else match t042_0.lookup v0 with
    | some s => ret s
    | none => do
      let v1 ← index value 1
      match t042_1.lookup v1 with
      | some s => ret s
      | none => ret (py!"Unknown Waypoint Type")

/-- decoder.py:625-626, 5.43 Waypoint Name / Description -/
def field_043 (value : Str) : Except Exc PyVal := ret (strip value)

/-- decoder.py:635-639, 5.45 Localizer Frequency -/
def field_045 (value : Str) : Except Exc PyVal :=
  if isNumeric value then do
    let x ← pyFloat value
    ret ((x.divNat 100).fmt 2)
  else ret (py!"BAD VALUE")

/-- decoder.py:653-654 -/
def field_048 (value : Str) : Except Exc PyVal := feet value

/-- decoder.py:658-667, 5.49 Localizer Position Reference -/
def field_049 (value : Str) : Except Exc PyVal :=
  if value = py!"@" then ret (py!"Beyond stop end of runway")
  else if value = py!"+" then ret (py!"Ahead of approach end of runway")
  else if value = py!"-" then ret (py!"To the side of runway")
  else ret value

/-- decoder.py:672-673 -/
def field_050 (value : Str) : Except Exc PyVal := feet value

/-- decoder.py:687-688 -/
def field_053 (value : Str) : Except Exc PyVal := feet value

/-- decoder.py:692-696, 5.54 Longest Runway -/
def field_054 (value : Str) : Except Exc PyVal :=
  if isNumeric value then ret (lstripZeros value ++ py!"00" ++ py!" ft") else ret value

/-- decoder.py:735-739, 5.62 -/
def field_062 (value : Str) : Except Exc PyVal :=
  if isNumeric value then do
    let x ← pyFloat value
    .ok (.float (x.divNat 10))
  else ret (py!"BAD VALUE")

/-- decoder.py:757-758, the `try` block of `field_065` -/
def legTime (value : Str) : Except LegErr Str :=
  match index value 0 with
  | .error _ => .error .tooShort
  | .ok v0 =>
    match pyInt v0 with
    | .error _ => .error (.notInt v0)
    | .ok m =>
      match index value 1 with
      | .error _ => .error .tooShort
      | .ok v1 =>
        match pyInt v1 with
        | .error _ => .error (.notInt v1)
        | .ok t => .ok (intStr m ++ py!"m " ++ intStr (t * 6) ++ py!"s")

/-- decoder.py:753-761, 5.65 -/
def field_065 (value : Str) : Except Exc PyVal × List Event :=
  if strip value = [] then (.ok .none, [])
  else match legTime value with
    | .ok s => (ret s, [])
    | .error e => (ret (py!"Invalid Value: \"" ++ value ++ py!"\""), [.legTime value e])

/-- decoder.py:795-801, 5.72 Speed Limit -/
def field_072 (value : Str) : Except Exc PyVal :=
  if isNumeric value then ret (value ++ py!" knots (IAS)")
  else if strip value = [] then ret value
  else .error .valueError

/-- decoder.py:805-806 -/
def field_073 (value : Str) : Except Exc PyVal := feet value

/-- decoder.py:850-864, 5.82 Waypoint Usage -/
def field_082 (value : Str) : Except Exc PyVal := do
  let v1 ← index value 1
  if v1 = py!"B" then ret (py!"HI and LO Altitude")
  else if v1 = py!"H" then ret (py!"HI Altitude")
  else if v1 = py!"L" then ret (py!"LO Altitude")
  else if v1 = py!" " then ret (py!"Terminal Use Only")
  else do
    let v0 ← index value 0
    if v0 = py!"R" then ret (py!"RNAV") else .error .valueError

/-- decoder.py:883-884 -/
def field_086 (value : Str) : Except Exc PyVal := feet value

/-- decoder.py:908-937, 5.91 Continuation Record Application Type -/
def field_091 (value : Str) : Except Exc PyVal :=
  match t091.lookup value with
  | some s => ret s
  | none => ret (py!"Unknown Application Type: " ++ value)

/-- decoder.py:941-942 -/
def field_092 (value : Str) : Except Exc PyVal := feet value

/-- `d[value] if d[value] != "bad value" else value + "BAD VALUE"` -/
def dictCase (t : List (Str × Str)) (value : Str) : Except Exc PyVal :=
  ret (if lookupD t value ≠ py!"bad value" then lookupD t value else value ++ py!"BAD VALUE")

/-- decoder.py:986-1030, 5.101 Communications Type -/
def field_101 (value : Str) : Except Exc PyVal := dictCase t101 value

/-- decoder.py:1034-1041, 5.102 Radar -/
def field_102 (value : Str) : Except Exc PyVal :=
  if value = py!"R" then ret (py!"Radar Capabilities")
  else if value = py!"N" then ret (py!"No Radar Capabilities")
  else ret value

/-- decoder.py:1045-1049, 5.103 Communications Frequency -/
def field_103 (value : Str) : Except Exc PyVal :=
  if isNumeric value then do
    let x ← pyFloat value
    ret ((x.divNat 100).fmt 2)
  else ret (py!"BAD VALUE")

/-- decoder.py:1053-1059, 5.104 Frequency Units -/
def field_104 (value : Str) : Except Exc PyVal := dictCase t104 value

/-- decoder.py:1068-1093, 5.106 Service Indicator -/
def field_106 (value : Str) : Except Exc PyVal :=
  if strip value = [] then ret value else ret (lookupD t106 value)

/-- decoder.py:1102-1109, 5.108 IFR Capability -/
def field_108 (value : Str) : Except Exc PyVal :=
  if value = py!"Y" then ret (py!"Official")
  else if value = py!"N" then ret (py!"Non-official")
  else .error .valueError

/-- decoder.py:1128-1135, 5.112 Marker Shape -/
def field_112 (value : Str) : Except Exc PyVal :=
  if value = py!"E" then ret (py!"Elliptical")
  else if value = py!"B" then ret (py!"Bone")
  else ret value

/-- decoder.py:1139-1146, 5.113 Marker Power -/
def field_113 (value : Str) : Except Exc PyVal :=
  if value = py!"H" then ret (py!"High Power (general use)")
  else if value = py!"L" then ret (py!"Low Power (low altitude use)")
  else ret value

/-- decoder.py:1165-1173, 5.117 FIR/UIR Indicator -/
def field_117 (value : Str) : Except Exc PyVal :=
  if value = py!"F" then ret (py!"FIR")
  else if value = py!"U" then ret (py!"UIR")
  else if value = py!"B" then ret (py!"Combined FIR/UIR")
  else ret value

/-- decoder.py:1179-1189: the text for the first character of a Boundary Via -/
def boundaryVia (v0 : Str) : Option Str :=
  if v0 = py!"C" then some (py!"Circle")
  else if v0 = py!"G" then some (py!"Great Circle")
  else if v0 = py!"H" then some (py!"Rhumb Line")
  else if v0 = py!"L" then some (py!"Counter Clockwise ARC")
  else if v0 = py!"R" then some (py!"Clockwise ARC")
  else none

/-- decoder.py:1177-1197, 5.118 Boundary Via -/
def field_118 (value : Str) : Except Exc PyVal × List Event :=
  match index value 0 with
  | .error e => (.error e, [])
  | .ok v0 =>
    match boundaryVia v0 with
    | none =>
      (ret (py!"Unsupported Value: \"" ++ value ++ py!"\""),
       [.line (py!"Unsupported Boundary Via: \"" ++ value ++ py!"\"")])
    | some s =>
      match index value 1 with
      | .error e => (.error e, [])
      | .ok v1 =>
        if v1 = py!"E" then (ret (s ++ py!", End of description, return to origin point"), [])
        else (ret s, [])

/-- decoder.py:1221-1222 -/
def field_123 (value : Str) : Except Exc PyVal := feet value

/-- decoder.py:1241-1242 -/
def field_127 (value : Str) : Except Exc PyVal := feet value

/-- decoder.py:1281-1285, 5.135 -/
def field_135 (value : Str) : Except Exc PyVal :=
  if isNumeric value then do
    let x ← pyFloat value
    .ok (.float (x.divNat 10))
  else ret (py!"BAD VALUE")

/-- decoder.py:1344-1345 -/
def field_147 (value : Str) : Except Exc PyVal := feet value

/-- decoder.py:1414-1415 -/
def field_161 (value : Str) : Except Exc PyVal := feet value

/-- decoder.py:1434-1440, 5.165 Magnetic/True Indicator -/
def field_165 (value : Str) : Except Exc PyVal :=
  if value = py!"M" then ret (py!"Magnetic")
  else if value = py!"T" then ret (py!"True")
  else ret value

/-- f'Unsupported Value: "{value}"' -/
def unsupported (value : Str) : Str := py!"Unsupported Value: \"" ++ value ++ py!"\""

/-- decoder.py:1500-1509, 5.177 Public/Military Indicator -/
def field_177 (value : Str) : Except Exc PyVal :=
  if value = py!"C" then ret (py!"Public / Civil")
  else if value = py!"M" then ret (py!"Military")
  else if value = py!"P" then ret (py!"Private (not open to public)")
  else ret (unsupported value)

/-- `string.ascii_uppercase.index(s)` for a one-character string -/
def upperIndex (s : Str) : Except Exc Int :=
  match s with
  | [c] => if 65 ≤ c ∧ c ≤ 90 then .ok ((c : Int) - 65) else .error .valueError
  | _ => .error .valueError

/-- decoder.py:1513-1519, 5.178 Time Zone -/
def field_178 (value : Str) : Except Exc PyVal := do
  let v0 ← index value 0
  if isAlpha v0 && isNumeric (sliceFrom value 1) then do
    let i ← upperIndex v0
    let x := i - 12
    let y := if x ≥ 0 then py!"GMT +" ++ intStr x else py!"GMT -" ++ intStr x
    ret (y ++ py!":" ++ sliceFrom value 1)
  else ret (unsupported value)

/-- decoder.py:1523-1530, 5.179 Daylight Time Indicator -/
def field_179 (value : Str) : Except Exc PyVal :=
  if value = py!"Y" then ret (py!"Yes")
  else if value = py!"N" then ret (py!"No")
  else ret (unsupported value)

/-- decoder.py:1539-1543, 5.181 H24 Indicator -/
def field_181 (value : Str) : Except Exc PyVal := dictCase t181 value

/-- decoder.py:1547-1556, 5.182 Guard/Transmit -/
def field_182 (value : Str) : Except Exc PyVal :=
  if value = py!"G" then ret (py!"Guard (radio receives on this freq)")
  else if value = py!"T" then ret (py!"Transmit (radio transmits on this freq)")
  else if value = py!" " then ret (py!"Guards and Transmits")
  else .error .valueError

/-- decoder.py:1565-1566 -/
def field_184 (value : Str) : Except Exc PyVal := feet value

/-- decoder.py:1625-1661, 5.196 Name Format Indicator -/
def field_196 (value : Str) : Except Exc PyVal := do
  let v0 ← index value 0
  match t196_0.lookup v0 with
  | some s => ret s
  | none => do
    let v1 ← index value 1
    match t196_1.lookup v1 with
    | some s => ret s
    | none => ret (py!"Unknown Name Format Indicator")

/-- decoder.py:1670-1674, 5.198 Modulation -/
def field_198 (value : Str) : Except Exc PyVal := dictCase t198 value

/-- decoder.py:1678-1689, 5.199 Signal Emission -/
def field_199 (value : Str) : Except Exc PyVal :=
  if strip value = [] then ret value else dictCase t199 value

/-- decoder.py:1738-1739 -/
def field_209 (value : Str) : Except Exc PyVal := feet value

/-- decoder.py:1893-1894 -/
def field_240 (value : Str) : Except Exc PyVal := feet value

/-- decoder.py:2038-2041, 5.269 -/
def field_269 (value : Str) : Except Exc PyVal :=
  if strip value ≠ [] then do
    let x ← pyFloat value
    .ok (.float (x.divNat 10))
  else ret value

/-- decoder.py:2045-2058, 5.270 TCH Value Indicator -/
def field_270 (value : Str) : Except Exc PyVal :=
  if value = py!"I" then ret (py!"ILS or MLS Glideslope")
  else if value = py!"R" then ret (py!"RNAV Procedure")
  else if value = py!"V" then ret (py!"Visual Glideslope Indicator (VGSI)")
  else if value = py!"D" then ret (py!"Default Value (40 or 50 feet)")
  else if value = py!" " then ret value
  else .error .valueError

/-- The two attributes of the record that decoders look at. -/
structure RecInfo where
  ident : Str
  raw : Str

/-- a decoder that neither prints nor touches `LegTypeDesc` -/
def quiet (legs : Legs) (r : Except Exc PyVal) : DecOut := ⟨r, [], legs⟩

/-- a decoder that may print -/
def noisy (legs : Legs) (r : Except Exc PyVal × List Event) : DecOut := ⟨r.1, r.2, legs⟩

/-- `decode_fn(value, record)` (decoder.py:13-14): dispatch on the function stored in the
    `Field`. Referring to a function decoder.py does not define would be an AttributeError. -/
def runDec (fn : DecFn) (value : Str) (rec : RecInfo) (legs : Legs) : DecOut :=
  match fn with
  | .ident n =>
    if identityFns.contains n then quiet legs (ret value) else quiet legs (.error .attributeError)
  | .f002 => quiet legs (field_002 value)
  | .f003 => quiet legs (field_003 value)
  | .f004 => quiet legs (field_004 value)
  | .f007 => quiet legs (field_007 value rec.ident)
  | .f008 => quiet legs (field_008 value)
  | .f009 => quiet legs (field_009 value)
  | .f010 => quiet legs (field_010 value)
  | .f012 => quiet legs (field_012 value)
  | .f016 => quiet legs (field_016 value)
  | .f017 => quiet legs (field_017 value)
  | .f020 => quiet legs (field_020 value)
  | .f021 => field_021 value legs
  | .f022 => quiet legs (field_022 value)
  | .f023 => quiet legs (field_023 value)
  | .f024 => quiet legs (field_024 value)
  | .f025 => quiet legs (field_025 value)
  | .f026 => quiet legs (field_026 value)
  | .f027 => quiet legs (field_027 value)
  | .f029 => quiet legs (field_029 value)
  | .f030 => quiet legs (field_030 value)
  | .f032 => quiet legs (field_032 value)
  | .f034 => noisy legs (field_034 value rec.ident rec.raw)
  | .f039 => quiet legs (field_039 value)
  | .f042 => quiet legs (field_042 value)
  | .f043 => quiet legs (field_043 value)
  | .f045 => quiet legs (field_045 value)
  | .f048 => quiet legs (field_048 value)
  | .f049 => quiet legs (field_049 value)
  | .f050 => quiet legs (field_050 value)
  | .f053 => quiet legs (field_053 value)
  | .f054 => quiet legs (field_054 value)
  | .f062 => quiet legs (field_062 value)
  | .f065 => noisy legs (field_065 value)
  | .f072 => quiet legs (field_072 value)
  | .f073 => quiet legs (field_073 value)
  | .f082 => quiet legs (field_082 value)
  | .f086 => quiet legs (field_086 value)
  | .f091 => quiet legs (field_091 value)
  | .f092 => quiet legs (field_092 value)
  | .f101 => quiet legs (field_101 value)
  | .f102 => quiet legs (field_102 value)
  | .f103 => quiet legs (field_103 value)
  | .f104 => quiet legs (field_104 value)
  | .f106 => quiet legs (field_106 value)
  | .f108 => quiet legs (field_108 value)
  | .f112 => quiet legs (field_112 value)
  | .f113 => quiet legs (field_113 value)
  | .f117 => quiet legs (field_117 value)
  | .f118 => noisy legs (field_118 value)
  | .f123 => quiet legs (field_123 value)
  | .f127 => quiet legs (field_127 value)
  | .f135 => quiet legs (field_135 value)
  | .f147 => quiet legs (field_147 value)
  | .f161 => quiet legs (field_161 value)
  | .f165 => quiet legs (field_165 value)
  | .f177 => quiet legs (field_177 value)
  | .f178 => quiet legs (field_178 value)
  | .f179 => quiet legs (field_179 value)
  | .f181 => quiet legs (field_181 value)
  | .f182 => quiet legs (field_182 value)
  | .f184 => quiet legs (field_184 value)
  | .f196 => quiet legs (field_196 value)
  | .f198 => quiet legs (field_198 value)
  | .f199 => quiet legs (field_199 value)
  | .f209 => quiet legs (field_209 value)
  | .f240 => quiet legs (field_240 value)
  | .f269 => quiet legs (field_269 value)
  | .f270 => quiet legs (field_270 value)

end Arinc
