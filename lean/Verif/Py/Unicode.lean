import Verif.Py.Str
/-!
# Character classes

`str.isalpha`, `str.isalnum`, `str.isnumeric` and the decimal value used by
`int()`/`float()` depend on the Unicode version of the interpreter. The class
`PyUnicode` states what all versions satisfy; every theorem is proved for every
instance. `Verif/Py/UnicodeTables.lean` contains CPython 3.11's tables as an instance.
-/
namespace Py

/-- Character database of a Python interpreter. -/
class PyUnicode where
  /-- `chr(c).isalpha()` -/
  alpha : Nat → Bool
  /-- `unicodedata.decimal(chr(c))`, if any -/
  decimal : Nat → Option Nat
  /-- `chr(c).isnumeric()` -/
  numeric : Nat → Bool
  alpha_ascii : ∀ c, c < 128 → alpha c = ((65 ≤ c && c ≤ 90) || (97 ≤ c && c ≤ 122))
  numeric_ascii : ∀ c, c < 128 → numeric c = (48 ≤ c && c ≤ 57)
  decimal_ascii : ∀ c, c < 128 → decimal c = if 48 ≤ c ∧ c ≤ 57 then some (c - 48) else none
  decimal_lt : ∀ c d, decimal c = some d → d < 10
  decimal_numeric : ∀ c d, decimal c = some d → numeric c = true
  numeric_not_space : ∀ c, numeric c = true → isSpace c = false
  alpha_not_space : ∀ c, alpha c = true → isSpace c = false

variable [PyUnicode]

/-- `s.isnumeric()`: non-empty and every character numeric -/
def isNumeric (s : Str) : Bool := !s.isEmpty && s.all PyUnicode.numeric

/-- `s.isalpha()` -/
def isAlpha (s : Str) : Bool := !s.isEmpty && s.all PyUnicode.alpha

/-- `s.isalnum()`: CPython tests alpha, decimal, digit, numeric in turn; decimal and
    digit characters are numeric, so the test is "alpha or numeric". -/
def isAlnum (s : Str) : Bool :=
  !s.isEmpty && s.all (fun c => PyUnicode.alpha c || PyUnicode.numeric c)

end Py
