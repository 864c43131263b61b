import Verif.Py.Unicode
/-!
# `int(str)`, `float(str)`, division and formatting of floats

CPython: `PyLong_FromUnicodeObject`, `PyFloat_FromString`, `float.__truediv__`,
`float.__format__('.nf')`. Doubles are modelled exactly as binary64 with
round-half-to-even, using integer arithmetic only.
-/
namespace Py
variable [PyUnicode]

/-- `_PyUnicode_TransformDecimalAndSpaceToASCII`, character by character; `'?'` marks a
    character no number can contain. -/
def toAscii (c : Nat) : Nat :=
  if c < 127 then c
  else if isSpace c then 32
  else match PyUnicode.decimal c with
    | some d => 48 + d
    | none => 63

omit [PyUnicode] in
/-- C `Py_ISSPACE`: what `int`/`float` skip around the number -/
def cSpace (c : Nat) : Bool := (9 ≤ c && c ≤ 13) || c == 32

/-- strip C white space on both sides -/
def cStrip (s : Str) : Str := ((s.dropWhile cSpace).reverse.dropWhile cSpace).reverse

/-- ASCII digit -/
def isDigit (c : Nat) : Bool := 48 ≤ c && c ≤ 57

/-- value of a string of ASCII digits -/
def digitsVal (s : Str) : Nat := s.foldl (fun a c => a * 10 + (c - 48)) 0

/-- optional sign; `true` means minus -/
def takeSign : Str → Bool × Str
  | 45 :: s => (true, s)
  | 43 :: s => (false, s)
  | s => (false, s)

/-- Remove underscores; each must stand between two digits
    (`_Py_string_to_number_with_underscores`, same rule in `PyLong_FromString`). -/
def dropUnderscores (prev : Nat) : Str → Option Str
  | [] => if prev == 95 then none else some []
  | c :: s =>
    if c == 95 then
      if isDigit prev then dropUnderscores c s else none
    else if prev == 95 && !isDigit c then none
    else (dropUnderscores c s).map (c :: ·)

/-- `sys.get_int_max_str_digits()` default -/
def maxStrDigits : Nat := 4300

/-- `int(s)` in base 10; ValueError if `s` is not an integer literal. -/
def pyInt (s : Str) : Except Exc Int :=
  let t := takeSign (cStrip (s.map toAscii))
  match dropUnderscores 0 t.2 with
  | none => .error .valueError
  | some ds =>
    if !ds.isEmpty && ds.all isDigit && ds.length ≤ maxStrDigits then
      .ok (if t.1 then - (digitsVal ds : Int) else (digitsVal ds : Int))
    else .error .valueError

/-! ### binary64 -/

/-- A binary64 value: `fin neg m e` is `± m * 2^e`. -/
inductive Dbl where
  | nan
  | inf (neg : Bool)
  | fin (neg : Bool) (m : Nat) (e : Int)
deriving DecidableEq, Repr

/-- `a / b` rounded to the nearest integer, ties to even (`b > 0`) -/
def rne (a b : Nat) : Nat :=
  if 2 * (a % b) < b then a / b
  else if b < 2 * (a % b) then a / b + 1
  else a / b + (a / b) % 2

/-- multiply the fraction `num/den` by `2^(-e)` -/
def scale (num den : Nat) (e : Int) : Nat × Nat :=
  if 0 ≤ e then (num, den * 2 ^ e.toNat) else (num * 2 ^ (-e).toNat, den)

/-- `floor (log2 (num/den))` for positive `num`, `den` -/
def floorLog2 (num den : Nat) : Int :=
  let l : Int := (Nat.log2 num : Int) - (Nat.log2 den : Int)
  let s := scale num den l
  if s.2 ≤ s.1 then l else l - 1

/-- The binary64 number nearest to `± num/den` (ties to even), with gradual underflow
    and overflow to infinity. -/
def roundDbl (neg : Bool) (num den : Nat) : Dbl :=
  if num = 0 then .fin neg 0 (-1074)
  else
    let e : Int := max (floorLog2 num den - 52) (-1074)
    let s := scale num den e
    let m := rne s.1 s.2
    if m = 2 ^ 53 then
      if 971 < e + 1 then .inf neg else .fin neg (2 ^ 52) (e + 1)
    else if 971 < e then .inf neg
    else .fin neg m e

/-- `m * 2^e` as a fraction -/
def dblFrac (m : Nat) (e : Int) : Nat × Nat :=
  if 0 ≤ e then (m * 2 ^ e.toNat, 1) else (m, 2 ^ (-e).toNat)

/-- `x / d` for a positive integer `d` (exactly representable) -/
def Dbl.divNat (x : Dbl) (d : Nat) : Dbl :=
  match x with
  | .nan => .nan
  | .inf neg => .inf neg
  | .fin neg m e => roundDbl neg (dblFrac m e).1 ((dblFrac m e).2 * d)

/-- `"{:.df}".format(x)`: the exact value rounded to `d` decimals, ties to even -/
def Dbl.fmt (d : Nat) (x : Dbl) : Str :=
  match x with
  | .nan => py!"nan"
  | .inf neg => if neg then py!"-inf" else py!"inf"
  | .fin neg m e =>
    let n := rne ((dblFrac m e).1 * 10 ^ d) (dblFrac m e).2
    (if neg then [45] else []) ++ natStr (n / 10 ^ d) ++ [46] ++ zfill d (natStr (n % 10 ^ d))

/-! ### `float(str)` -/

/-- lower-case an ASCII letter -/
def asciiLower (c : Nat) : Nat := if 65 ≤ c && c ≤ 90 then c + 32 else c

/-- exponent part: nothing, or `e`/`E`, optional sign, at least one digit -/
def parseExp : Str → Option Int
  | [] => some 0
  | c :: s =>
    if c == 101 || c == 69 then
      let t := takeSign s
      if !t.2.isEmpty && t.2.all isDigit then
        some (if t.1 then - (digitsVal t.2 : Int) else (digitsVal t.2 : Int))
      else none
    else none

/-- unsigned decimal literal: `digits [. digits] [exponent]` with at least one digit;
    result `(n, k)` denotes `n * 10^k` -/
def parseDecimal (s : Str) : Option (Nat × Int) :=
  let ip := s.takeWhile isDigit
  let rest := s.dropWhile isDigit
  let fp := match rest with
    | 46 :: r => r.takeWhile isDigit
    | _ => []
  let rest' := match rest with
    | 46 :: r => r.dropWhile isDigit
    | r => r
  if ip.isEmpty && fp.isEmpty then none
  else (parseExp rest').map (fun e => (digitsVal (ip ++ fp), e - fp.length))

/-- the binary64 value of `± n * 10^k` -/
def decDbl (neg : Bool) (n : Nat) (k : Int) : Dbl :=
  if 0 ≤ k then roundDbl neg (n * 10 ^ k.toNat) 1 else roundDbl neg n (10 ^ (-k).toNat)

/-- `float(s)`; ValueError if `s` is not a float literal. -/
def pyFloat (s : Str) : Except Exc Dbl :=
  match dropUnderscores 0 (cStrip (s.map toAscii)) with
  | none => .error .valueError
  | some u =>
    let t := takeSign u
    let low := t.2.map asciiLower
    if low = py!"inf" || low = py!"infinity" then .ok (.inf t.1)
    else if low = py!"nan" then .ok .nan
    else match parseDecimal t.2 with
      | some (n, k) => .ok (decDbl t.1 n k)
      | none => .error .valueError

end Py
