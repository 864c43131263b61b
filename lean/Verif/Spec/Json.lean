import Verif.Py.Str
/-!
# Specification: JSON objects of strings (RFC 8259)

An independent reader for the JSON texts whose value is an object with string members: white space
between tokens, all escapes, `\uXXXX` denoting UTF-16 code units. It does not mention the writer.
-/
namespace Spec
open Py

/-- white space (RFC 8259 section 2) -/
def jsonWs (c : Nat) : Bool := c == 32 || c == 9 || c == 10 || c == 13

/-- value of a hexadecimal digit of either case -/
def hexVal (c : Nat) : Option Nat :=
  if 48 ≤ c ∧ c ≤ 57 then some (c - 48)
  else if 65 ≤ c ∧ c ≤ 70 then some (c - 55)
  else if 97 ≤ c ∧ c ≤ 102 then some (c - 87)
  else none

/-- one-character escapes (RFC 8259 section 7) -/
def simpleEscape (c : Nat) : Option Nat :=
  if c = 34 then some 34          -- \"
  else if c = 92 then some 92     -- \\
  else if c = 47 then some 47     -- \/
  else if c = 98 then some 8      -- \b
  else if c = 102 then some 12    -- \f
  else if c = 110 then some 10    -- \n
  else if c = 114 then some 13    -- \r
  else if c = 116 then some 9     -- \t
  else none

/-- UTF-16 code units of one code point -/
def utf16 (c : Nat) : List Nat :=
  if c < 0x10000 then [c] else [0xD800 + (c - 0x10000) / 0x400, 0xDC00 + (c - 0x10000) % 0x400]

def highSurrogate (c : Nat) : Bool := 0xD800 ≤ c && c ≤ 0xDBFF
def lowSurrogate (c : Nat) : Bool := 0xDC00 ≤ c && c ≤ 0xDFFF

/-- code points of a sequence of UTF-16 code units; unpaired surrogates stand for themselves -/
def fromUtf16 : List Nat → Str
  | [] => []
  | [u] => [u]
  | u :: v :: us =>
    if highSurrogate u && lowSurrogate v then
      (0x10000 + (u - 0xD800) * 0x400 + (v - 0xDC00)) :: fromUtf16 us
    else u :: fromUtf16 (v :: us)

/-- the code units of a string literal after its opening quote, and the text after its closing quote -/
def stringUnits : Str → Option (List Nat × Str)
  | [] => none
  | 34 :: rest => some ([], rest)
  | 92 :: 117 :: a :: b :: c :: d :: rest =>
    match hexVal a, hexVal b, hexVal c, hexVal d, stringUnits rest with
    | some a, some b, some c, some d, some (us, rest') =>
      some ((((a * 16 + b) * 16 + c) * 16 + d) :: us, rest')
    | _, _, _, _, _ => none
  | 92 :: e :: rest =>
    match simpleEscape e, stringUnits rest with
    | some u, some (us, rest') => some (u :: us, rest')
    | _, _ => none
  | c :: rest =>
    if c < 32 then none
    else match stringUnits rest with
      | some (us, rest') => some (utf16 c ++ us, rest')
      | none => none

/-- skip white space -/
def skipWs (s : Str) : Str := s.dropWhile jsonWs

/-- a string literal, after optional white space -/
def jsonString (s : Str) : Option (Str × Str) :=
  match skipWs s with
  | 34 :: rest =>
    match stringUnits rest with
    | some (us, rest') => some (fromUtf16 us, rest')
    | none => none
  | _ => none

/-- `"name" : "value"`, and the text after it -/
def jsonMember (s : Str) : Option ((Str × Str) × Str) :=
  match jsonString s with
  | some (k, rest) =>
    match skipWs rest with
    | 58 :: rest =>
      match jsonString rest with
      | some (v, rest) => some ((k, v), rest)
      | none => none
    | _ => none
  | none => none

/-- members separated by commas up to the closing brace, which must end the text but for white space;
    `fuel` bounds the number of members -/
def jsonTail : Nat → Str → Option (List (Str × Str))
  | 0, _ => none
  | fuel + 1, s =>
    match jsonMember s with
    | some (kv, rest) =>
      match skipWs rest with
      | 44 :: rest => (jsonTail fuel rest).map (kv :: ·)
      | 125 :: rest => if (skipWs rest).isEmpty then some [kv] else none
      | _ => none
    | none => none

/-- The members, in order, of the object of strings the text `s` denotes; `none` if `s` is not the
    JSON text of such an object. -/
def jsonObject (s : Str) : Option (List (Str × Str)) :=
  match skipWs s with
  | 123 :: rest =>
    match skipWs rest with
    | 125 :: rest' => if (skipWs rest').isEmpty then some [] else none
    | _ => jsonTail s.length rest
  | _ => none

/-- A text of code points in which no high surrogate is followed by a low one: every text but some
    with unpaired surrogates (which no text file contains). -/
def NoSurrogatePair : Str → Prop
  | [] => True
  | [_] => True
  | u :: v :: s => (highSurrogate u && lowSurrogate v) = false ∧ NoSurrogatePair (v :: s)

/-- what a Python `str` can be, and without surrogate pairs -/
def PlainText (s : Str) : Prop := (∀ c ∈ s, c < 0x110000) ∧ NoSurrogatePair s

def decNoSurrogatePair : (s : Str) → Decidable (NoSurrogatePair s)
  | [] => .isTrue trivial
  | [_] => .isTrue trivial
  | _ :: v :: s =>
    have := decNoSurrogatePair (v :: s)
    inferInstanceAs (Decidable (_ ∧ _))

instance (s : Str) : Decidable (NoSurrogatePair s) := decNoSurrogatePair s

instance (s : Str) : Decidable (PlainText s) := inferInstanceAs (Decidable (_ ∧ _))

/-- no surrogate code points: every text decoded from a file, for instance -/
def NoSurrogates (s : Str) : Prop := ∀ c ∈ s, c < 0xD800 ∨ (0xDFFF < c ∧ c < 0x110000)

/-- Record kinds whose fields do not all have different names: section, primary, application type. -/
def repeatsName (section_ : Str) (primary : Bool) (app : Str) : Bool :=
  if section_ = py!"R " ∨ section_ = py!"RA" then true
  else if section_ = py!"ET" ∨ section_ = py!"TG" then primary
  else if section_ = py!"EU" then primary && app = py!"AE"
  else if section_ = py!"PR" then !primary && app = py!"A"
  else false

end Spec
