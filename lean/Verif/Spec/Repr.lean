import Verif.Spec.Double
import Verif.Model.Types
/-!
# Specification: `str(float)`

The Python documentation: the shortest decimal that is rounded to the same double.
-/
namespace Spec
open Py Arinc

/-- the doubles in the form in which they are encoded -/
def Encoded : Dbl → Prop
  | .nan => True
  | .inf _ => True
  | .fin _ m e => m < 2 ^ 53 ∧ -1074 ≤ e ∧ e ≤ 971 ∧ (2 ^ 52 ≤ m ∨ e = -1074)

/-- `Written n k s`: the number `n * 10^k` is written `s`. With a point and without an exponent, if it is at least
    0.0001 and less than 10^16. -/
inductive Written (n : ℕ) : ℤ → Str → Prop
  /-- `1234000.0` -/
  | whole {j : ℕ} {ds : Str} (hd : Decimal ds n) (hl : ds.length + j ≤ 16) :
      Written n j (ds ++ List.replicate j 48 ++ py!".0")
  /-- `12.34` -/
  | point {ip fp : Str} (hd : Decimal (ip ++ fp) n) (hi : ip ≠ []) (hf : fp ≠ []) (hl : ip.length ≤ 16) :
      Written n (-fp.length) (ip ++ py!"." ++ fp)
  /-- `0.001234` -/
  | small {j : ℕ} {ds : Str} (hd : Decimal ds n) (hj : j < 4) :
      Written n (-(ds.length + j : ℕ)) (py!"0." ++ List.replicate j 48 ++ ds)
  /-- `1.234e+20`, `1e-05` -/
  | exponent {k : ℤ} {c : ℕ} {ds ex : Str} {neg : Bool} {e : ℕ} (hd : Decimal (c :: ds) n)
      (hk : k + ds.length = if neg then -(e : ℤ) else e) (he : if neg then 5 ≤ e else 16 ≤ e)
      (hex : Numeral ex e) (hex2 : ex.length = 2 ∨ (3 ≤ ex.length ∧ Decimal ex e)) :
      Written n k (c :: ((if ds = [] then [] else py!"." ++ ds) ++ py!"e" ++ (if neg then py!"-" else py!"+") ++ ex))

/-- `ShortText x s`: `str(x)` is `s` -/
inductive ShortText : Dbl → Str → Prop
  | nan : ShortText .nan (py!"nan")
  | inf : ShortText (.inf false) (py!"inf")
  | negInf : ShortText (.inf true) (py!"-inf")
  | zero {neg : Bool} {e : ℤ} : ShortText (.fin neg 0 e) ((if neg then py!"-" else []) ++ py!"0.0")
  /-- A decimal that is rounded to the double; no multiple of a greater power of ten is; of the multiples of the same
      power that are, it is the nearest, or the even one of the two nearest. -/
  | fin {neg : Bool} {m n : ℕ} {e k : ℤ} {s : Str} (hm : m ≠ 0) (back : Rounds false (n * 10 ^ k) (.fin false m e))
      (short : ∀ (n' : ℕ) (k' : ℤ), Rounds false (n' * 10 ^ k') (.fin false m e) → k' ≤ k)
      (near : ∀ n' : ℕ, Rounds false (n' * 10 ^ k) (.fin false m e) →
        |(n * 10 ^ k : ℚ) - m * 2 ^ e| ≤ |(n' * 10 ^ k : ℚ) - m * 2 ^ e|)
      (even : ∀ n' : ℕ, n' ≠ n → Rounds false (n' * 10 ^ k) (.fin false m e) →
        |(n' * 10 ^ k : ℚ) - m * 2 ^ e| = |(n * 10 ^ k : ℚ) - m * 2 ^ e| → n % 2 = 0)
      (hs : Written n k s) : ShortText (.fin neg m e) ((if neg then py!"-" else []) ++ s)

/-- `CellText x s`: the cell with the value `x` has the text `s` -/
inductive CellText : PyVal → Str → Prop
  | str {s : Str} : CellText (.str s) s
  | none : CellText .none (py!"None")
  | float {x : Dbl} {s : Str} (h : ShortText x s) : CellText (.float x) s

end Spec
