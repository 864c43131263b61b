import Verif.Spec.Codes
import Verif.Spec.Standard
import Verif.Spec.Domain
import Verif.Model.Record
/-!
# Specification: what a line is and what its fields mean

`kindOfLine` and `meaning` put together what the other specifications say piece by piece: which list of
fields a line has, and what is shown for the raw value of a field of a type. `meaning` is `none` where
nothing is said: the value is rejected, reported, or an unusual way to write a number.
-/
namespace Spec
open Py Arinc

/-! ## Lines -/

/-- Is a record `t` of section `k` primary? Its continuation number is 0 or 1. For sections without a
    continuation column the number read `before` by the same object is looked at (empty for a new one). -/
def isPrimary (before t k : Str) : Bool :=
  match contColumn k with
  | some i => col t i = py!"0" || col t i = py!"1"
  | none => before = py!"0" || before = py!"1"

/-- the columns and the type with which the field is shown -/
def Std.StdField.shown (f : Std.StdField) : List Nat × DecFn :=
  match f.used with
  | some u => u
  | none => (f.columns, f.fn)

/-- The line is the record `t`, of section `k`, which has the fields `fs`. `before` is the continuation number
    the object read before. -/
structure IsLine [PyUnicode] (before line t k : Str) (fs : List Std.StdField) : Prop where
  padded : Padded line t
  shape : IsRecord t
  section_ : Resolves line k
  continuation : ∀ i, contColumn k = some i → isAlnum (col t i) = true
  fields : fs = Std.fieldsOf k (isPrimary before t k) (pick line (appColumns k))
  listed : fs ≠ []

/-! ## Numbers -/

/-- the decimal numeral of `n` -/
def decimal (n : Nat) : Str := (Nat.toDigits 10 n).map Char.toNat

/-- `n / 10^d` with `d` decimals -/
def fixed (d n : Nat) : Str :=
  let frac := decimal (n % 10 ^ d)
  decimal (n / 10 ^ d) ++ py!"." ++ (List.replicate (d - frac.length) 48 ++ frac)

/-- the number a digit string denotes -/
def number (v : Str) : Option Nat :=
  if v ≠ [] ∧ ∀ c ∈ v, 48 ≤ c ∧ c ≤ 57 then some (digitSum v) else none

/-- only whitespace -/
def blank (v : Str) : Bool := v.all isSpace

/-- `v` consists of letters (and digits, if allowed), at least one -/
def wordOf (digits : Bool) (v : Str) : Bool :=
  v ≠ [] && v.all fun c => (65 ≤ c && c ≤ 90) || (97 ≤ c && c ≤ 122) || (digits && 48 ≤ c && c ≤ 57)

/-! ## Fields -/

/-- what is shown for a field -/
inductive Reading where
  /-- a text -/
  | text (s : Str)
  /-- a number, of tenths -/
  | tenths (n : Nat)
  /-- no value -/
  | nothing
deriving DecidableEq

/-- the Python value: a `str`, the `float` denoted by the decimal fraction, or `None` -/
def Reading.value [PyUnicode] : Reading → Except Exc PyVal
  | .text s => .ok (.str s)
  | .tenths n => (pyFloat (fixed 1 n)).map .float
  | .nothing => .ok .none

/-- the value of a code, in the field types whose whole value is a code -/
def meaningCode (t : CodeField) (v : Str) : Option Reading :=
  if t.blank && blank v then some (.text v)
  else match t.codes.lookup v with
    | some d => some (.text d)
    | none => match t.otherwise with
      | .text s => some (.text s)
      | .prefixed s => some (.text (s ++ v))
      | .same => some (.text v)
      | .unsupported => some (.text (py!"Unsupported Value: \"" ++ v ++ py!"\""))
      | .raises => none

/-- heights: the number without leading zeros, in feet (zero, sic, without a digit) -/
def meaningFeet (v : Str) : Reading :=
  match number v with
  | some 0 => .text (py!" ft")
  | some n => .text (decimal n ++ py!" ft")
  | none => .text v

/-- two-column codes: the first column decides, else the second -/
def meaningTwo (codes₁ codes₂ : List (Str × Str)) (other : Str) : Str → Option Reading
  | a :: b :: _ => match codes₁.lookup [a] with
    | some s => some (.text s)
    | none => match codes₂.lookup [b] with
      | some s => some (.text s)
      | none => some (.text other)
  | _ => none

/-- the other field types -/
def meaningOther (section_ : Str) (fn : DecFn) (v : Str) : Option Reading :=
  match fn with
  | .f007 => match (routeTypesOf section_).lookup v with               -- 5.7 route type
    | some d => some (.text d)
    | none => some (.text (py!"<UNKNOWN>"))
  | .f008 => if wordOf true (strip v) then some (.text v) else none    -- 5.8 route identifier
  | .f009 => some (if wordOf true (strip v) then .text v else .nothing)  -- 5.9 SID/STAR identifier
  | .f010 => match v with                                              -- 5.10 approach identifier
    | a :: b :: c :: d :: _ => some (.text (py!"Approach: " ++ [a] ++ py!", Runway: " ++ [b, c, d]))
    | _ => none
  | .f012 => match sequenceKinds.lookup (strip v).length with          -- 5.12 sequence number
    | some kind => some (.text (kind ++ py!" - Sequence No. " ++ v))
    | none => some (.text v)
  | .f016 => some (.text (if v = py!"0" then py!"Primary Record"       -- 5.16 continuation number
      else if v = py!"1" then py!"Primary Record (with Cont.)" else v ++ py!" - Continuation"))
  | .f017 => match v with                                              -- 5.17 waypoint description
    | a :: b :: c :: d :: _ => some (.text (lines (described waypointDescription1 a ++
        described waypointDescription2 b ++ described waypointDescription3 c ++
        described waypointDescription4 d)))
    | _ => none
  | .f021 => if blank v then some (.text [])                           -- 5.21 path terminator
    else match pathTerminators.lookup (strip v) with
      | some d => some (.text d)
      | none => if wordOf false (strip v) then some (.text (py!"<UNKNOWN>")) else none
  | .f022 => if blank v || wordOf false (strip v) then some (.text (strip v)) else none
  | .f023 | .f024 | .f025 =>                                           -- 5.23 - 5.25 navaid, theta, rho
    if blank v || (wordOf true (strip v) && (strip v).length ≤ 4) then some (.text (strip v)) else none
  | .f026 => if blank v then some (.text [])                           -- 5.26 course
    else if (strip v).length ≤ 4 then match number (strip v) with
      | some n => some (.text (fixed 1 n))
      | none => if wordOf true (strip v) && (strip v).getLast? = some 84 then some (.text (strip v)) else none
    else none
  | .f027 => if blank v then some (.text [])                           -- 5.27 distance or time
    else if (strip v).length ≤ 15 then match number (strip v) with
      | some n => some (.text (fixed 1 n ++ py!" nm"))
      | none => match strip v with
        | 84 :: w => (number w).map (fun n => .text (fixed 1 n ++ py!" min"))
        | _ => none
    else none
  | .f032 => if v.length ≥ 2 then (number (v.take 2)).map (fun y =>    -- 5.32 cycle date
      .text (decimal (if y > 50 then 1900 + y else 2000 + y) ++ py!", Release " ++ v.drop 2)) else none
  | .f034 => if blank v then some (.text [])                           -- 5.34 VOR/NDB frequency
    else if (strip v).length ≤ 15 then (number (strip v)).map (fun n => .text (fixed 2 n)) else none
  | .f039 => if blank v then some (.text v) else match v with          -- 5.39 magnetic variation
    | c :: w => if w.length ≤ 4300 then (number w).map (fun n =>
        .text (List.replicate (3 - (decimal n).length) 48 ++ decimal n ++ py!" " ++ [c])) else none
    | [] => none
  | .f042 => match v with                                              -- 5.42 waypoint type
    | 78 :: b :: rest => some (.text (py!"NDB Navaid as Waypoint" ++ b :: rest))
    | _ => meaningTwo waypointTypes1 waypointTypes2 (py!"Unknown Waypoint Type") v
  | .f043 => some (.text (strip v))                                    -- 5.43 name
  | .f045 | .f103 => match number v with                               -- localizer, communication frequency
    | some n => if v.length ≤ 15 then some (.text (fixed 2 n)) else none
    | none => some (.text (py!"BAD VALUE"))
  | .f029 | .f030 | .f048 | .f050 | .f053 | .f073 | .f086 | .f092 | .f123 | .f127 | .f147 | .f161 | .f184 |
    .f209 | .f240 => some (meaningFeet v)
  | .f054 => match number v with                                       -- 5.54 longest runway, hundreds of feet
    | some 0 => some (.text (py!"00 ft"))
    | some n => some (.text (decimal (100 * n) ++ py!" ft"))
    | none => some (.text v)
  | .f062 | .f135 => match number v with                               -- holding speed, threshold height
    | some n => if v.length ≤ 15 then some (.tenths n) else none
    | none => some (.text (py!"BAD VALUE"))
  | .f065 => if blank v then some .nothing else match v with           -- 5.65 leg time
    | a :: b :: _ => (number [a]).bind fun m => (number [b]).map fun t =>
        .text (decimal m ++ py!"m " ++ decimal (6 * t) ++ py!"s")
    | _ => none
  | .f072 => if (number v).isSome then some (.text (v ++ py!" knots (IAS)"))  -- 5.72 speed limit
    else if blank v then some (.text v) else none
  | .f082 => match v with                                              -- 5.82 waypoint usage
    | a :: b :: _ => match waypointUsages.lookup [b] with
      | some s => some (.text s)
      | none => if a = 82 then some (.text (py!"RNAV")) else none
    | _ => none
  | .f118 => match v with                                              -- 5.118 boundary via
    | a :: b :: _ => (boundaryVias.lookup [a]).map fun s =>
        .text (if b = 69 then s ++ py!", End of description, return to origin point" else s)
    | _ => none
  | .f178 => match v with                                              -- 5.178 time zone
    | c :: w => if wordOf false [c] && (number w).isSome then
        if 77 ≤ c ∧ c ≤ 90 then some (.text (py!"GMT +" ++ decimal (c - 77) ++ py!":" ++ w))
        else if 65 ≤ c ∧ c ≤ 76 then some (.text (py!"GMT --" ++ decimal (77 - c) ++ py!":" ++ w))  -- (sic)
        else none
      else some (.text (py!"Unsupported Value: \"" ++ v ++ py!"\""))
    | [] => none
  | .f196 => meaningTwo nameFormats1 nameFormats2 (py!"Unknown Name Format Indicator") v  -- 5.196 name format
  | .f269 => if blank v then some (.text v)                            -- 5.269 threshold crossing height
    else if v.length ≤ 15 then (number v).map .tenths else none
  | .ident _ => some (.text v)
  | _ => none

/-- what is shown for the raw value `v` of a field of type `fn` in a record of the section -/
def meaning (section_ : Str) (fn : DecFn) (v : Str) : Option Reading :=
  match codeFields.find? (fun t => t.fn = fn) with
  | some t => meaningCode t v
  | none => meaningOther section_ fn v

/-- the field types that ask what kind of characters the value has, or read a number in it -/
def classed (fn : DecFn) : Bool :=
  match fn with
  | .f008 | .f009 | .f021 | .f022 | .f023 | .f024 | .f025 | .f026 | .f027 | .f029 | .f030 | .f032 | .f034 | .f039 |
    .f045 | .f048 | .f050 | .f053 | .f054 | .f062 | .f065 | .f072 | .f073 | .f086 | .f092 | .f103 | .f123 | .f127 |
    .f135 | .f147 | .f161 | .f178 | .f184 | .f209 | .f240 | .f269 => true
  | _ => false

/-- the number in the value is not written with digits only, but `float()` or `int()` accepts it: `1e3` -/
def Unusual [PyUnicode] (fn : DecFn) (v : Str) : Prop :=
  match fn with
  | .f026 => IsFloat (strip v) ∧ number (strip v) = none
  | .f027 => ∃ w, (strip v = w ∨ strip v = 84 :: w) ∧ IsFloat w ∧ number w = none
  | .f032 => IsInt (v.take 2) ∧ number (v.take 2) = none
  | .f039 => IsInt (v.drop 1) ∧ number (v.drop 1) = none
  | .f269 => IsFloat v ∧ number v = none
  | _ => False

/-- the value has the columns the field type needs, and no more than a number may have; every field of every
    record has them (`C74_widths`) -/
def fullWidth (fn : DecFn) (n : Nat) : Bool :=
  match fn with
  | .ident m => identityFns.contains m
  | .f010 | .f017 => 4 ≤ n
  | .f032 | .f042 | .f082 | .f118 | .f196 => 2 ≤ n
  | .f039 => 1 ≤ n && n ≤ 4300
  | .f178 => 1 ≤ n
  | .f027 | .f034 | .f045 | .f062 | .f103 | .f135 | .f269 => n ≤ 15
  | _ => true

/-- What is shown for a line of section `k` with the fields `fs`: name, raw value and reading of each field,
    if every field has one. -/
def shownFor (k line : Str) (fs : List Std.StdField) : Option (List (Str × Str × Reading)) :=
  fs.mapM fun f => (meaning k f.shown.2 (pick line f.shown.1)).map fun x => (f.name, pick line f.shown.1, x)

/-- the table for a line: a row for each field with its name, its raw value between quotes and its reading -/
def TableFor [PyUnicode] (line : Str) (rows : List Row) : Prop :=
  ∃ (t k : Str) (fs : List Std.StdField) (xs : List (Str × Str × Reading)), IsLine [] line t k fs ∧
    shownFor k line fs = some xs ∧
    rows.map (fun r => (r.field, r.value, (.ok r.decoded : Except Exc PyVal))) =
      xs.map (fun x => (x.1, py!"'" ++ x.2.1 ++ py!"'", x.2.2.value))

/-- the tables for the lines of a file: of the lines that are records of a supported section, in order -/
inductive TablesFor [PyUnicode] : List Str → List (List Row) → Prop
  | nil : TablesFor [] []
  | record {l : Str} {ls : List Str} {rows : List Row} {rest : List (List Row)} (h : TableFor l rows)
      (t : TablesFor ls rest) : TablesFor (l :: ls) (rows :: rest)
  | other {l : Str} {ls : List Str} {rest : List (List Row)} (h : ¬ (WellShaped l ∧ ∃ k, Resolves l k))
      (t : TablesFor ls rest) : TablesFor (l :: ls) rest

end Spec
