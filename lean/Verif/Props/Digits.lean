import Verif.Lemmas.Seventeen
import Verif.Props.Repr
/-!
# C87: how long `str(float)` is
-/
namespace Arinc
open Py Spec

/-- C87: `str(float)` has at most seventeen digits (apart from zeros before and behind them, and the exponent). -/
theorem C87_digits {neg : Bool} {m : ℕ} {e : ℤ} (hm : m ≠ 0) {s : Str} (h : ShortText (.fin neg m e) s) :
    ∃ (n : ℕ) (k : ℤ) (u ds : Str), s = (if neg then py!"-" else []) ++ u ∧ Written n k u ∧ Decimal ds n ∧
      ds.length ≤ 17 := by
  cases h with
  | zero => exact absurd rfl hm
  | @fin _ _ n _ k u _ back short near even hs =>
    exact ⟨n, k, u, _, rfl, hs, natStr_decimal n,
      decimal_length_lt (natStr_decimal n) (by norm_num) (digits_17 hm back short near)⟩

/-- C87: and at most 24 characters. -/
theorem C87_length {x : Dbl} {s : Str} (h : ShortText x s) : s.length ≤ 24 := short_length h

/-- C87: Seventeen digits are enough for every double: it has a decimal with at most seventeen digits that is rounded to it. -/
theorem C87_enough {neg : Bool} {m : ℕ} {e : ℤ} (hx : Encoded (.fin neg m e)) :
    ∃ (n : ℕ) (k : ℤ), n < 10 ^ 17 ∧ Rounds neg (n * 10 ^ k) (.fin neg m e) := by
  obtain ⟨s, _, h⟩ := repr_short hx
  cases h with
  | zero => exact ⟨0, 0, by norm_num, by simpa using rounds_self hx.1 hx.2.1 hx.2.2.1 hx.2.2.2⟩
  | @fin _ _ n _ k u h0 back short near even hs =>
    exact ⟨n, k, digits_17 h0 back short near, rounds_sign back⟩

/-- there are doubles with seventeen digits and with 24 characters -/
example : (Dbl.fin false 7205759403792794 (-56)).repr = some (py!"0.1") ∧
    (Dbl.fin false 5404319552844596 (-54)).repr = some (py!"0.30000000000000004") ∧
    (Dbl.fin true (2 ^ 52) (-1074)).repr = some (py!"-2.2250738585072014e-308") ∧
    (py!"-2.2250738585072014e-308").length = 24 := by decide +kernel

end Arinc
