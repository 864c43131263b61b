import Verif.Py.Lit
/-!
# Python strings

A Python `str` is a sequence of code points; we represent it as `List Nat`.
Only the operations that arinc424 uses are defined, with the semantics of
CPython (>= 3.10, the library uses `match`).
-/
namespace Py

/-- A Python `str`: the list of its code points. -/
abbrev Str := List Nat

/-- Python exceptions that can leave the modelled functions (messages are not modelled). -/
inductive Exc where
  | valueError
  | indexError
  | attributeError
  /-- raised by `exit()` (decoder.py:497) -/
  | systemExit
  /-- `open` / `os.scandir` failing -/
  | osError
deriving DecidableEq, Repr

deriving instance DecidableEq for Except

/-- `str.isspace` of one character; also the set removed by `str.strip()`.
    CPython `_PyUnicode_IsWhitespace`. -/
def isSpace (c : Nat) : Bool :=
  (9 ≤ c && c ≤ 13) || (28 ≤ c && c ≤ 32) || c == 133 || c == 160 || c == 5760 ||
  (8192 ≤ c && c ≤ 8202) || c == 8232 || c == 8233 || c == 8239 || c == 8287 || c == 12288

/-- remove leading whitespace -/
def lstrip (s : Str) : Str := s.dropWhile isSpace

/-- remove trailing whitespace -/
def rstrip (s : Str) : Str := (s.reverse.dropWhile isSpace).reverse

/-- `s.strip()` -/
def strip (s : Str) : Str := rstrip (lstrip s)

/-- `s.lstrip('0')` -/
def lstripZeros (s : Str) : Str := s.dropWhile (· == 48)

/-- `s[i]` for a literal `i ≥ 0`: IndexError when out of range. -/
def index (s : Str) (i : Nat) : Except Exc Str :=
  match s[i]? with
  | some c => .ok [c]
  | none => .error .indexError

/-- `s[lo:hi]` for literals `0 ≤ lo`, `0 ≤ hi`: never raises, may be short. -/
def slice (s : Str) (lo hi : Nat) : Str := (s.take hi).drop lo

/-- `s[lo:]` for a literal `lo ≥ 0` -/
def sliceFrom (s : Str) (lo : Nat) : Str := s.drop lo

/-- `s[-n:]` for a literal `n > 0` -/
def lastN (s : Str) (n : Nat) : Str := s.drop (s.length - n)

/-- `sub in s` -/
def contains (sub : Str) : Str → Bool
  | [] => sub.isEmpty
  | c :: s => sub.isPrefixOf (c :: s) || contains sub s

/-- `s.startswith((p, q))` for one-character strings -/
def startsWithEither (s : Str) (p q : Nat) : Bool :=
  match s with
  | [] => false
  | c :: _ => c == p || c == q

/-- `s.endswith(c)` for a one-character string -/
def endsWithChar (s : Str) (c : Nat) : Bool := s.getLast? == some c

/-- truth value of a `str` -/
def truthy (s : Str) : Bool := !s.isEmpty

/-- Universal-newline translation done by `open(path)` in text mode (`newline=None`):
    CR LF and lone CR become LF. -/
def universalNewlines : Str → Str
  | [] => []
  | 13 :: 10 :: s => 10 :: universalNewlines s
  | 13 :: s => 10 :: universalNewlines s
  | c :: s => c :: universalNewlines s

/-- `f.readlines()` on translated text: split after every LF, keeping the LF; a
    final piece without LF is a line too; no empty final line. -/
def splitKeepLF : Str → List Str
  | [] => []
  | 10 :: s => [10] :: splitKeepLF s
  | c :: s =>
    match splitKeepLF s with
    | [] => [[c]]
    | l :: ls => (c :: l) :: ls

/-- `with open(path) as f: f.readlines()` as a function of the decoded text. -/
def readlines (text : Str) : List Str := splitKeepLF (universalNewlines text)

/-- `str(n)` for a natural number: decimal digits, most significant first. -/
def natStrAux : Nat → Nat → Str → Str
  | 0, _, acc => acc
  | fuel + 1, n, acc =>
    let acc := (48 + n % 10) :: acc
    if n / 10 = 0 then acc else natStrAux fuel (n / 10) acc

/-- `str(n)` for a natural number -/
def natStr (n : Nat) : Str := natStrAux (n + 1) n []

/-- `str(i)` for an integer -/
def intStr (i : Int) : Str :=
  if i < 0 then 45 :: natStr i.natAbs else natStr i.natAbs

/-- left-pad with `'0'` to at least `w` characters -/
def zfill (w : Nat) (s : Str) : Str := List.replicate (w - s.length) 48 ++ s

end Py
