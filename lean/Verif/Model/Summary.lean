import Verif.Model.Json
import Verif.Model.Api
/-!
# Model: the text of the summary of `search`

Modelled: src/arinc424/__init__.py:37, the text that `colored` is given. An f-string shows a `str` as it is and a
`list` as `str(list)`, which is `repr` of its elements between brackets. The colour codes around the text
(termcolor) are in `Model/Stdout.lean`. Not modelled: the text of filters that are neither `str` nor `list` of `str`.

`repr` of a `str` is CPython's `unicode_repr` (Objects/unicodeobject.c). Which characters above 127 are printable is a
parameter; CPython's table is in Py/Printable.lean.
-/
namespace Arinc
open Py

/-- `'\\x%02x'` -/
def xEscape (n : Nat) : Str := [92, 120, hexDigit (n / 16 % 16), hexDigit (n % 16)]

/-- `'\\U%08x'` -/
def bigEscape (n : Nat) : Str :=
  [92, 85, hexDigit (n / 268435456 % 16), hexDigit (n / 16777216 % 16), hexDigit (n / 1048576 % 16),
   hexDigit (n / 65536 % 16), hexDigit (n / 4096 % 16), hexDigit (n / 256 % 16), hexDigit (n / 16 % 16),
   hexDigit (n % 16)]

/-- `unicode_repr`, one character; `q` is the quote around the string -/
def reprChar (printable : Nat → Bool) (q c : Nat) : Str :=
  if c = q ∨ c = 92 then [92, c]
  else if c = 9 then [92, 116]
  else if c = 10 then [92, 110]
  else if c = 13 then [92, 114]
  else if c < 32 ∨ c = 127 then xEscape c
  else if c < 127 then [c]
  else if printable c then [c]
  else if c < 256 then xEscape c
  else if c < 65536 then uEscape c
  else bigEscape c

/-- `unicode_repr`: double quotes if there is a single quote in the string and no double quote -/
def reprQuote (s : Str) : Nat := if 39 ∈ s ∧ 34 ∉ s then 34 else 39

/-- `repr(s)` of a `str` -/
def reprStr (printable : Nat → Bool) (s : Str) : Str :=
  reprQuote s :: (s.flatMap (reprChar printable (reprQuote s)) ++ [reprQuote s])

/-- the elements of `list.__repr__`, with `', '` between them -/
def reprElems (printable : Nat → Bool) : List Str → Str
  | [] => []
  | [s] => reprStr printable s
  | s :: t :: ss => reprStr printable s ++ [44, 32] ++ reprElems printable (t :: ss)

/-- `str(filters)`; `none`: not modelled -/
def Filters.shown (printable : Nat → Bool) : Filters → Option Str
  | .str s => some s
  | .list ss => some (91 :: (reprElems printable ss ++ [93]))
  | .other => none

/-- __init__.py:37 `f"Found {count} records that contain {filters}"` -/
def summaryText (printable : Nat → Bool) (count : Nat) (filters : Filters) : Option Str :=
  (filters.shown printable).map fun t => py!"Found " ++ natStr count ++ py!" records that contain " ++ t

end Arinc
