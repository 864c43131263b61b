import Verif.Spec.Value
import Verif.Spec.Number
import Mathlib.Algebra.Order.Field.Power
import Mathlib.Algebra.Order.Field.Rat
/-!
# Specification: IEEE 754 binary64

Which rational numbers are doubles, and to which double a rational number is rounded (to nearest, ties to even).
Stated with rational numbers, independently of the way the model computes.
-/
namespace Spec
open Py

/-- a binary number of 53 bits, with the smallest exponent of binary64 but no greatest one -/
def IsBinary (y : ℚ) : Prop := ∃ (m : ℕ) (e : ℤ), m < 2 ^ 53 ∧ -1074 ≤ e ∧ y = m * 2 ^ e

/-- `Rounds neg q x`: the double `x` is `± q` rounded -/
inductive Rounds (neg : Bool) (q : ℚ) : Dbl → Prop
  /-- the nearest double, in the form in which it is encoded: with the leading bit, unless the exponent is the
      smallest. Of two that are equally near, the one whose last bit is zero. -/
  | fin {m : ℕ} {e : ℤ} (hm : m < 2 ^ 53) (he : -1074 ≤ e) (he' : e ≤ 971) (hn : 2 ^ 52 ≤ m ∨ e = -1074)
      (near : ∀ y, IsBinary y → |m * 2 ^ e - q| ≤ |y - q|)
      (even : ∀ y, IsBinary y → y ≠ m * 2 ^ e → |y - q| = |m * 2 ^ e - q| → m % 2 = 0) : Rounds neg q (.fin neg m e)
  /-- infinity from half a unit beyond the greatest double on -/
  | inf (h : (2 ^ 53 - 1 / 2) * 2 ^ 971 ≤ q) : Rounds neg q (.inf neg)

/-- the double a number is rounded to -/
inductive Denotes : Lit → Dbl → Prop
  | nan : Denotes .nan .nan
  | inf {neg : Bool} : Denotes (.inf neg) (.inf neg)
  | dec {neg : Bool} {n : ℕ} {k : ℤ} {x : Dbl} (h : Rounds neg (n * 10 ^ k) x) : Denotes (.dec neg n k) x

/-- `float(s)` is `x` -/
def FloatText [PyUnicode] (s : Str) (x : Dbl) : Prop := ∃ l, FloatLit s l ∧ Denotes l x

/-- `QuotientOf d x y`: the double `y` is `x / d` -/
inductive QuotientOf (d : ℕ) : Dbl → Dbl → Prop
  | nan : QuotientOf d .nan .nan
  | inf {neg : Bool} : QuotientOf d (.inf neg) (.inf neg)
  | fin {neg : Bool} {m : ℕ} {e : ℤ} {y : Dbl} (h : Rounds neg (m * 2 ^ e / d) y) : QuotientOf d (.fin neg m e) y

/-- `n` is the integer nearest to `r`; of two that are equally near, the even one -/
def NearestInt (r : ℚ) (n : ℕ) : Prop :=
  (∀ k : ℕ, |(n : ℚ) - r| ≤ |(k : ℚ) - r|) ∧ ∀ k : ℕ, k ≠ n → |(k : ℚ) - r| = |(n : ℚ) - r| → n % 2 = 0

/-- `FixedText d x s`: the double `x` with `d` decimals is written `s` -/
inductive FixedText (d : ℕ) : Dbl → Str → Prop
  | nan : FixedText d .nan (py!"nan")
  | inf : FixedText d (.inf false) (py!"inf")
  | negInf : FixedText d (.inf true) (py!"-inf")
  | fin {neg : Bool} {m n : ℕ} {e : ℤ} {s : Str} (hn : NearestInt (m * 2 ^ e * 10 ^ d) n) (hs : Fixed d s n) :
      FixedText d (.fin neg m e) ((if neg then py!"-" else []) ++ s)

end Spec
