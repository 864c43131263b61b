import Verif.Model.Record
/-!
# record.py:175-187 `Record.json`

`json.dumps` (CPython, `ensure_ascii=True`) of a flat `dict[str, str]`, in the two styles
used: default, and `sort_keys=True, indent=4, separators=(',', ': ')`.
-/
namespace Arinc
open Py

/-- `d.update({k: v})` on an insertion-ordered dict -/
def dictUpdate (d : List (Str × Str)) (k v : Str) : List (Str × Str) :=
  match d with
  | [] => [(k, v)]
  | (k', v') :: d => if k' = k then (k, v) :: d else (k', v') :: dictUpdate d k v

/-- lower-case hexadecimal digit -/
def hexDigit (n : Nat) : Nat := if n < 10 then 48 + n else 87 + n

/-- `'\\u{0:04x}'.format(n)` for `n < 0x10000` -/
def uEscape (n : Nat) : Str :=
  [92, 117, hexDigit (n / 4096 % 16), hexDigit (n / 256 % 16), hexDigit (n / 16 % 16),
   hexDigit (n % 16)]

/-- json.encoder.py_encode_basestring_ascii, one character -/
def jsonChar (c : Nat) : Str :=
  if c = 34 then [92, 34]
  else if c = 92 then [92, 92]
  else if c = 10 then [92, 110]
  else if c = 13 then [92, 114]
  else if c = 9 then [92, 116]
  else if c = 12 then [92, 102]
  else if c = 8 then [92, 98]
  else if 32 ≤ c ∧ c ≤ 126 then [c]
  else if c < 0x10000 then uEscape c
  else
    let n := c - 0x10000
    uEscape (0xd800 + n / 0x400 % 0x400) ++ uEscape (0xdc00 + n % 0x400)

/-- a JSON string literal -/
def jsonStr (s : Str) : Str := [34] ++ s.flatMap jsonChar ++ [34]

/-- members joined by `sep`, key and value joined by `kvSep` -/
def jsonMembers (sep kvSep : Str) : List (Str × Str) → Str
  | [] => []
  | [(k, v)] => jsonStr k ++ kvSep ++ jsonStr v
  | (k, v) :: rest => jsonStr k ++ kvSep ++ jsonStr v ++ sep ++ jsonMembers sep kvSep rest

/-- `json.dumps(d)` -/
def dumps (d : List (Str × Str)) : Str :=
  [123] ++ jsonMembers (py!", ") (py!": ") d ++ [125]

/-- `a <= b` on `str`: lexicographic by code point -/
def strLe : Str → Str → Bool
  | [], _ => true
  | _ :: _, [] => false
  | a :: s, b :: t => if a < b then true else if a = b then strLe s t else false

/-- insert a pair in order of keys -/
def insertSorted (p : Str × Str) : List (Str × Str) → List (Str × Str)
  | [] => [p]
  | q :: qs => if strLe p.1 q.1 then p :: q :: qs else q :: insertSorted p qs

/-- `sorted(d.items())`; keys of a dict are distinct, so only keys matter and any sorting
    algorithm gives the same list -/
def sortItems (d : List (Str × Str)) : List (Str × Str) := d.foldr insertSorted []

/-- newline and four blanks -/
def indent4 : Str := [10, 32, 32, 32, 32]

/-- `json.dumps(d, sort_keys=True, indent=4, separators=(',', ': '))` -/
def dumpsPretty (d : List (Str × Str)) : Str :=
  match sortItems d with
  | [] => [123, 125]
  | items => [123] ++ indent4 ++ jsonMembers (py!"," ++ indent4) (py!": ") items ++ [10] ++ [125]

/-- record.py:176-178: the dict of field names and values -/
def Record.dict (self : Record) : List (Str × Str) :=
  self.fields.foldl (fun d f => dictUpdate d f.name f.value) []

/-- record.py:175-187 `Record.json`: returned text and prints -/
def Record.json (self : Record) (output single_line : Bool) : Str × List Event :=
  let data := if single_line then dumps self.dict else dumpsPretty self.dict
  (data, if output then [.line data] else [])

end Arinc
