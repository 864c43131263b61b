import Verif.Py.Num
/-!
# Specification: which texts are numbers

The grammar of the Python documentation for `int(text)` and `float(text)`: white space around the number, a sign,
digits of any script, underscores between digits, and for `float` a point, an exponent, `inf`, `infinity`
and `nan`. `IntText s i` and `FloatLit s l` say that the text `s` denotes the integer `i` or the number `l`; to which
double it is rounded is said in `Spec/Double.lean`.
-/
namespace Spec
open Py
variable [PyUnicode]

/-- white space around a number -/
def NumSpace (c : Nat) : Prop := isSpace c = true ∧ ¬ (28 ≤ c ∧ c ≤ 31)

/-- a decimal digit, of any script -/
def IsDec (c : Nat) : Prop := ∃ d, PyUnicode.decimal c = some d

/-- digits only (perhaps none) -/
def DecDigits (s : Str) : Prop := ∀ c ∈ s, IsDec c

/-- `DigitsDenote s n`: the digits `s` denote `n` -/
inductive DigitsDenote : Str → Nat → Prop
  | nil : DigitsDenote [] 0
  | snoc {s : Str} {n c d : Nat} (h : DigitsDenote s n) (hc : PyUnicode.decimal c = some d) :
      DigitsDenote (s ++ [c]) (10 * n + d)

/-- `Grouped s t`: the text `s` is `t` with single underscores inserted between digits -/
inductive Grouped : Str → Str → Prop
  | nil : Grouped [] []
  | plain {c : Nat} {s t : Str} (hc : c ≠ 95) (h : Grouped s t) : Grouped (c :: s) (c :: t)
  | group {c d : Nat} {s t : Str} (hc : IsDec c) (hd : IsDec d) (h : Grouped (d :: s) t) :
      Grouped (c :: 95 :: d :: s) (c :: t)

/-- a sign (`true`: minus) or none -/
inductive Sign : Str → Bool → Prop
  | none : Sign [] false
  | plus : Sign (py!"+") false
  | minus : Sign (py!"-") true

/-- the number with the sign -/
def signed (neg : Bool) (n : Nat) : Int := if neg then -(n : Int) else n

/-- a text with white space around it -/
def Spaced (s t : Str) : Prop :=
  ∃ pre post, s = pre ++ t ++ post ∧ (∀ c ∈ pre, NumSpace c) ∧ ∀ c ∈ post, NumSpace c

/-- `int(s)` is `i`: at most 4300 digits -/
inductive IntText : Str → Int → Prop
  | mk {s t sg g ds : Str} {neg : Bool} {n : Nat} (hs : Spaced s t) (ht : t = sg ++ g) (hsg : Sign sg neg)
      (hg : Grouped g ds) (hne : ds ≠ []) (hl : ds.length ≤ 4300) (hn : DigitsDenote ds n) :
      IntText s (signed neg n)

/-- the exponent: nothing, or `e` with a number -/
inductive ExpText : Str → Int → Prop
  | none : ExpText [] 0
  | some {e : Nat} {sg ds : Str} {neg : Bool} {n : Nat} (he : e = 101 ∨ e = 69) (hsg : Sign sg neg) (hne : ds ≠ [])
      (hn : DigitsDenote ds n) : ExpText (e :: (sg ++ ds)) (signed neg n)

/-- `Decimal s n k`: the text `s` is a decimal fraction, perhaps with an exponent, of value `n * 10^k` -/
inductive DecimalText : Str → Nat → Int → Prop
  | whole {ds ex : Str} {n : Nat} {e : Int} (hne : ds ≠ []) (hn : DigitsDenote ds n) (he : ExpText ex e) :
      DecimalText (ds ++ ex) n e
  | point {ds fs ex : Str} {n : Nat} {e : Int} (hne : ds ++ fs ≠ []) (hn : DigitsDenote (ds ++ fs) n)
      (he : ExpText ex e) : DecimalText (ds ++ 46 :: (fs ++ ex)) n (e - fs.length)

/-- the same word, but for the case of its letters -/
def SameWord (s w : Str) : Prop := s.map asciiLower = w

/-- the numbers that texts denote: besides `nan` and the infinities, `± n * 10^k` -/
inductive Lit
  | nan
  | inf (neg : Bool)
  | dec (neg : Bool) (n : Nat) (k : Int)

/-- what stands after the sign, and the number it denotes -/
inductive Unsigned (neg : Bool) : Str → Lit → Prop
  | inf {s : Str} (h : SameWord s (py!"inf") ∨ SameWord s (py!"infinity")) : Unsigned neg s (.inf neg)
  | nan {s : Str} (h : SameWord s (py!"nan")) : Unsigned neg s .nan
  | number {s : Str} {n : Nat} {k : Int} (h : DecimalText s n k) : Unsigned neg s (.dec neg n k)

/-- `float(s)` is `l`, rounded -/
inductive FloatLit : Str → Lit → Prop
  | mk {s t sg u : Str} {neg : Bool} {l : Lit} (hs : Spaced s t) (hg : Grouped t (sg ++ u)) (hsg : Sign sg neg)
      (hu : Unsigned neg u l) : FloatLit s l

end Spec
