import Verif.Spec.Double
import Mathlib.Tactic.Linarith
import Mathlib.Tactic.Positivity
import Mathlib.Tactic.FieldSimp
import Mathlib.Tactic.Ring
import Mathlib.Tactic.NormNum
import Mathlib.Tactic.Push
/-!
# `roundDbl` rounds to the nearest double
-/
namespace Py
open Spec

theorem two_zpow_pos (e : ℤ) : (0 : ℚ) < 2 ^ e := by positivity

/-- `rne` is the nearest integer -/
theorem rne_near {a b : ℕ} (hb : 0 < b) : |(rne a b : ℚ) - a / b| ≤ 1 / 2 ∧
    (|(rne a b : ℚ) - a / b| = 1 / 2 → rne a b % 2 = 0) := by
  have hq : (0 : ℚ) < b := by exact_mod_cast hb
  have hdm : (a : ℚ) = b * (a / b : ℕ) + (a % b : ℕ) := by exact_mod_cast (Nat.div_add_mod a b).symm
  have hr : (a : ℚ) / b = (a / b : ℕ) + (a % b : ℕ) / b := by
    rw [hdm]; field_simp
  have hlt : ((a % b : ℕ) : ℚ) / b < 1 := by
    rw [div_lt_one hq]; exact_mod_cast Nat.mod_lt a hb
  have hge : (0 : ℚ) ≤ ((a % b : ℕ) : ℚ) / b := by positivity
  generalize hf : ((a % b : ℕ) : ℚ) / b = f at *
  have hfb : ((a % b : ℕ) : ℚ) = f * b := by rw [← hf]; field_simp
  rw [hr]
  unfold rne
  split
  · next h =>
    have h2 : f < 1 / 2 := by
      have : (2 * (a % b : ℕ) : ℚ) < b := by exact_mod_cast h
      rw [hfb] at this; nlinarith
    have e : ((a / b : ℕ) : ℚ) - ((a / b : ℕ) + f) = -f := by ring
    rw [e, abs_neg, abs_of_nonneg hge]
    exact ⟨h2.le, fun h => absurd h h2.ne⟩
  · split
    · next _ h =>
      have h2 : 1 / 2 < f := by
        have : (b : ℚ) < 2 * (a % b : ℕ) := by exact_mod_cast h
        rw [hfb] at this; nlinarith
      have e : ((a / b + 1 : ℕ) : ℚ) - ((a / b : ℕ) + f) = 1 - f := by push_cast; ring
      rw [e, abs_of_pos (by linarith)]
      exact ⟨by linarith, fun h => by linarith⟩
    · next h1 h2 =>
      have h3 : 2 * (a % b) = b := by omega
      have h4 : f = 1 / 2 := by
        have : (2 * (a % b : ℕ) : ℚ) = b := by exact_mod_cast h3
        rw [hfb] at this
        have : b * (2 * f - 1) = 0 := by linarith
        rcases mul_eq_zero.1 this with h | h <;> linarith
      refine ⟨?_, fun _ => by omega⟩
      rcases Nat.mod_two_eq_zero_or_one (a / b) with h | h <;> rw [h, h4] <;> push_cast
      · rw [show ((a / b : ℕ) : ℚ) + 0 - ((a / b : ℕ) + 1 / 2) = -(1 / 2) by ring, abs_neg, abs_of_pos (by norm_num)]
      · rw [show ((a / b : ℕ) : ℚ) + 1 - ((a / b : ℕ) + 1 / 2) = 1 / 2 by ring, abs_of_pos (by norm_num)]

theorem scale_pos {num den : ℕ} {e : ℤ} (hd : 0 < den) : 0 < (scale num den e).2 := by
  unfold scale; split <;> simp only <;> positivity

theorem scale_val {num den : ℕ} {e : ℤ} :
    ((scale num den e).1 : ℚ) / (scale num den e).2 = num / den / 2 ^ e := by
  unfold scale
  split
  · next h =>
    obtain ⟨n, rfl⟩ := Int.eq_ofNat_of_zero_le h
    simp only [Int.toNat_natCast, zpow_natCast]
    push_cast
    rw [div_div]
  · next h =>
    obtain ⟨n, hn⟩ := Int.eq_ofNat_of_zero_le (show 0 ≤ -e by omega)
    have : e = -(n : ℤ) := by omega
    subst this
    simp only [neg_neg, Int.toNat_natCast, zpow_neg, zpow_natCast]
    push_cast
    rw [div_inv_eq_mul]; ring

theorem log2_bounds {n : ℕ} (h : 0 < n) : (2 : ℚ) ^ (Nat.log2 n : ℤ) ≤ n ∧ (n : ℚ) < 2 ^ ((Nat.log2 n : ℤ) + 1) := by
  constructor
  · rw [zpow_natCast]; exact_mod_cast Nat.log2_self_le (by omega)
  · rw [show ((Nat.log2 n : ℤ) + 1) = ((Nat.log2 n + 1 : ℕ) : ℤ) by push_cast; rfl, zpow_natCast]
    exact_mod_cast Nat.lt_log2_self

theorem floorLog2_bounds {num den : ℕ} (hn : 0 < num) (hd : 0 < den) :
    (2 : ℚ) ^ floorLog2 num den ≤ num / den ∧ (num : ℚ) / den < 2 ^ (floorLog2 num den + 1) := by
  have hq : (0 : ℚ) < den := by exact_mod_cast hd
  obtain ⟨n1, n2⟩ := log2_bounds hn
  obtain ⟨d1, d2⟩ := log2_bounds hd
  generalize hl : ((Nat.log2 num : ℤ) - (Nat.log2 den : ℤ)) = l
  have hs := scale_pos (num := num) (e := l) hd
  have hs' : (0 : ℚ) < (scale num den l).2 := by exact_mod_cast hs
  have hv := scale_val (num := num) (den := den) (e := l)
  have hL : (Nat.log2 num : ℤ) = l + (Nat.log2 den : ℤ) := by omega
  rw [hL] at n1 n2
  have two : (2 : ℚ) ≠ 0 := by norm_num
  have up : (num : ℚ) / den < 2 ^ (l + 1) := by
    rw [div_lt_iff₀ hq]
    calc (num : ℚ) < 2 ^ (l + Nat.log2 den + 1) := n2
      _ = 2 ^ (l + 1) * 2 ^ (Nat.log2 den : ℤ) := by rw [← zpow_add₀ two]; congr 1; ring
      _ ≤ 2 ^ (l + 1) * den := by gcongr
  have lo : (2 : ℚ) ^ (l - 1) ≤ num / den := by
    rw [le_div_iff₀ hq]
    calc (2 : ℚ) ^ (l - 1) * den ≤ 2 ^ (l - 1) * 2 ^ ((Nat.log2 den : ℤ) + 1) := by gcongr
      _ = 2 ^ (l + Nat.log2 den) := by rw [← zpow_add₀ two]; congr 1; ring
      _ ≤ num := n1
  unfold floorLog2
  simp only [hl]
  split
  · next h =>
    refine ⟨?_, up⟩
    have : (1 : ℚ) ≤ (scale num den l).1 / (scale num den l).2 := by
      rw [le_div_iff₀ hs', one_mul]; exact_mod_cast h
    rw [hv, le_div_iff₀ (two_zpow_pos l), one_mul] at this
    exact this
  · next h =>
    refine ⟨lo, ?_⟩
    have : ((scale num den l).1 : ℚ) / (scale num den l).2 < 1 := by
      rw [div_lt_iff₀ hs', one_mul]; exact_mod_cast Nat.lt_of_not_le h
    rw [hv, div_lt_iff₀ (two_zpow_pos l), one_mul] at this
    simpa using this

/-- integers are at least as far away as the nearest one -/
theorem int_far {m k : ℕ} {r : ℚ} (h : |(m : ℚ) - r| ≤ 1 / 2) : |(m : ℚ) - r| ≤ |(k : ℚ) - r| ∧
    (k ≠ m → |(k : ℚ) - r| = |(m : ℚ) - r| → |(m : ℚ) - r| = 1 / 2) := by
  by_cases hkm : k = m
  · subst hkm; exact ⟨le_refl _, fun h => absurd rfl h⟩
  · have : (1 : ℚ) ≤ |(k : ℚ) - m| := by
      have : (1 : ℤ) ≤ |(k : ℤ) - m| := Int.one_le_abs (by omega)
      exact_mod_cast this
    have tri : |(k : ℚ) - m| ≤ |(k : ℚ) - r| + |(m : ℚ) - r| := by
      have := abs_sub_le (k : ℚ) r m
      rwa [abs_sub_comm r m] at this
    exact ⟨by linarith, fun _ h' => by linarith⟩

theorem pow_split (e : ℤ) {e' : ℤ} (h : e ≤ e') : ∃ n : ℕ, e' = e + n ∧ (2 : ℚ) ^ e' = 2 ^ e * (2 ^ n : ℕ) := by
  obtain ⟨n, hn⟩ := Int.eq_ofNat_of_zero_le (show 0 ≤ e' - e by omega)
  refine ⟨n, by omega, ?_⟩
  rw [show e' = e + (n : ℤ) by omega, zpow_add₀ (by norm_num), zpow_natCast]
  push_cast; rfl

/-- a smaller exponent makes a smaller number than a leading bit -/
theorem binary_lt {m : ℕ} {e e' : ℤ} (hm : m < 2 ^ 53) (h : e < e') : (m : ℚ) * 2 ^ e < 2 ^ 52 * 2 ^ e' := by
  have h1 : (m : ℚ) < 2 ^ 53 := by exact_mod_cast hm
  have h2 : (2 : ℚ) ^ (e + 1) ≤ 2 ^ e' := zpow_le_zpow_right₀ (by norm_num) (by omega)
  have h3 : (2 : ℚ) ^ (e + 1) = 2 ^ e * 2 := by rw [zpow_add₀ (by norm_num), zpow_one]
  have h4 := two_zpow_pos e
  calc (m : ℚ) * 2 ^ e < 2 ^ 53 * 2 ^ e := by gcongr
    _ = 2 ^ 52 * 2 ^ (e + 1) := by rw [h3]; ring
    _ ≤ 2 ^ 52 * 2 ^ e' := by gcongr

/-- no binary number is nearer than the nearest multiple of the unit -/
theorem binary_far {q r : ℚ} {e : ℤ} {m : ℕ} (hr : q = r * 2 ^ e) (hm : |(m : ℚ) - r| ≤ 1 / 2)
    (hlo : 2 ^ 52 ≤ r ∨ e = -1074) {y : ℚ} (hy : IsBinary y) :
    |m * 2 ^ e - q| ≤ |y - q| ∧ (y ≠ m * 2 ^ e → |y - q| = |m * 2 ^ e - q| → |(m : ℚ) - r| = 1 / 2) := by
  have hp := two_zpow_pos e
  have scale : ∀ z : ℚ, |z * 2 ^ e - q| = |z - r| * 2 ^ e := by
    intro z; rw [hr, ← sub_mul, abs_mul, abs_of_pos hp]
  obtain ⟨m', e', hm', he', rfl⟩ := hy
  by_cases hee : e ≤ e'
  · obtain ⟨n, _, hn⟩ := pow_split e hee
    have hk : (m' : ℚ) * 2 ^ e' = ((m' * 2 ^ n : ℕ) : ℚ) * 2 ^ e := by rw [hn]; push_cast; ring
    obtain ⟨f1, f2⟩ := int_far (k := m' * 2 ^ n) hm
    rw [hk, scale, scale]
    refine ⟨by gcongr, fun hne h => f2 (fun h => hne (by rw [h])) ?_⟩
    exact mul_right_cancel₀ hp.ne' h
  · have hlo : (2 : ℚ) ^ 52 ≤ r := by rcases hlo with h | h; exact h; omega
    have hy : (m' : ℚ) * 2 ^ e' < 2 ^ 52 * 2 ^ e := binary_lt hm' (by omega)
    have hq : 2 ^ 52 * 2 ^ e ≤ q := by rw [hr]; gcongr
    have far : |m * 2 ^ e - q| < |(m' : ℚ) * 2 ^ e' - q| := by
      have h1 := (int_far (k := 2 ^ 52) hm).1
      have h2 : |m * 2 ^ e - q| ≤ |((2 ^ 52 : ℕ) : ℚ) * 2 ^ e - q| := by rw [scale, scale]; gcongr
      rw [show ((2 ^ 52 : ℕ) : ℚ) = 2 ^ 52 by norm_num] at h2
      rw [abs_of_nonpos (show (2 : ℚ) ^ 52 * 2 ^ e - q ≤ 0 by linarith)] at h2
      rw [abs_of_neg (show (m' : ℚ) * 2 ^ e' - q < 0 by linarith)]
      linarith
    exact ⟨far.le, fun _ h => absurd h far.ne'⟩

/-- `roundDbl` gives the nearest double -/
theorem roundDbl_rounds {neg : Bool} {num den : ℕ} (hd : 0 < den) : Rounds neg (num / den) (roundDbl neg num den) := by
  unfold roundDbl
  split
  · next h0 =>
    subst h0
    refine .fin (by norm_num) (le_refl _) (by norm_num) (.inr rfl) (fun y hy => ?_) (fun _ _ _ _ => rfl)
    simp
  · next h0 =>
    obtain ⟨b1, b2⟩ := floorLog2_bounds (Nat.pos_of_ne_zero h0) hd
    generalize floorLog2 num den = l at b1 b2
    generalize hE : max (l - 52) (-1074) = e
    have hv := scale_val (num := num) (den := den) (e := e)
    have hp := scale_pos (num := num) (e := e) hd
    obtain ⟨r1, r2⟩ := rne_near (a := (scale num den e).1) hp
    rw [hv] at r1 r2
    have he := two_zpow_pos e
    generalize hq : (num : ℚ) / den = q at *
    generalize hm : rne (scale num den e).1 (scale num den e).2 = m at *
    generalize hr : q / 2 ^ e = r at *
    have hqr : q = r * 2 ^ e := by rw [← hr]; field_simp
    have h1074 : -1074 ≤ e := by omega
    have two : (2 : ℚ) ≠ 0 := by norm_num
    have hhi : r < 2 ^ 53 := by
      rw [← hr, div_lt_iff₀ he]
      calc q < 2 ^ (l + 1) := b2
        _ ≤ 2 ^ (53 + e) := zpow_le_zpow_right₀ (by norm_num) (by omega)
        _ = 2 ^ 53 * 2 ^ e := by rw [zpow_add₀ two]; norm_cast
    have hlo : 2 ^ 52 ≤ r ∨ e = -1074 := by
      by_cases h : e = -1074
      · exact .inr h
      · left
        rw [← hr, le_div_iff₀ he]
        calc (2 : ℚ) ^ 52 * 2 ^ e = 2 ^ (52 + e) := by rw [zpow_add₀ two]; norm_cast
          _ ≤ 2 ^ l := zpow_le_zpow_right₀ (by norm_num) (by omega)
          _ ≤ q := b1
    have habs := abs_le.1 r1
    have hm53 : m ≤ 2 ^ 53 := by
      have : (m : ℚ) < 2 ^ 53 + 1 := by linarith [habs.2]
      have : m < 2 ^ 53 + 1 := by exact_mod_cast this
      omega
    have hm52 : 2 ^ 52 ≤ m ∨ e = -1074 := by
      refine hlo.imp_left fun h => ?_
      have : (2 : ℚ) ^ 52 < m + 1 := by linarith [habs.1]
      have : 2 ^ 52 < m + 1 := by exact_mod_cast this
      omega
    have far := fun y => binary_far hqr r1 hlo (y := y)
    simp only [hm]
    split
    · next h =>
      have hmq : (m : ℚ) * 2 ^ e = ((2 ^ 52 : ℕ) : ℚ) * 2 ^ (e + 1) := by
        rw [h, zpow_add₀ two, zpow_one]; push_cast; ring
      split
      · next hov =>
        refine .inf ?_
        have h2 : (2 : ℚ) ^ (971 : ℤ) ≤ 2 ^ e := zpow_le_zpow_right₀ (by norm_num) (by omega)
        have h2' : (2 : ℚ) ^ 971 ≤ 2 ^ e := by exact_mod_cast h2
        rw [h] at habs
        push_cast at habs
        have h3 : (2 : ℚ) ^ 53 - 1 / 2 ≤ r := by linarith [habs.2]
        rw [hqr]
        have : (0 : ℚ) ≤ 2 ^ 53 - 1 / 2 := by norm_num
        gcongr
      · next hov =>
        refine .fin (by norm_num) (by omega) (by omega) (.inl (le_refl _)) (fun y hy => ?_) (fun y hy _ _ => by norm_num)
        rw [← hmq]; exact (far y hy).1
    · next h =>
      split
      · next hov =>
        refine .inf ?_
        have h2 : (2 : ℚ) ^ (972 : ℤ) ≤ 2 ^ e := zpow_le_zpow_right₀ (by norm_num) (by omega)
        have h2' : (2 : ℚ) ^ 972 ≤ 2 ^ e := by exact_mod_cast h2
        have h52 : (2 : ℚ) ^ 52 ≤ r := by rcases hlo with h | h; exact h; omega
        calc ((2 : ℚ) ^ 53 - 1 / 2) * 2 ^ 971 ≤ 2 ^ 53 * 2 ^ 971 := by gcongr; norm_num
          _ = 2 ^ 52 * 2 ^ 972 := by rw [← pow_add, ← pow_add]
          _ ≤ r * 2 ^ e := by gcongr
          _ = q := hqr.symm
      · next hov =>
        exact .fin (by omega) h1074 (by omega) hm52 (fun y hy => (far y hy).1)
          (fun y hy hne h => r2 ((far y hy).2 hne h))

/-- a binary number has only one encoding -/
theorem encoding_unique {m m' : ℕ} {e e' : ℤ} (hm : m < 2 ^ 53) (hm' : m' < 2 ^ 53) (he : -1074 ≤ e) (he' : -1074 ≤ e')
    (hn : 2 ^ 52 ≤ m ∨ e = -1074) (hn' : 2 ^ 52 ≤ m' ∨ e' = -1074) (h : (m : ℚ) * 2 ^ e = m' * 2 ^ e') :
    m = m' ∧ e = e' := by
  have key : ∀ {m m' : ℕ} {e e' : ℤ}, m < 2 ^ 53 → -1074 ≤ e → (2 ^ 52 ≤ m' ∨ e' = -1074) → e < e' →
      (m : ℚ) * 2 ^ e = m' * 2 ^ e' → False := by
    intro m m' e e' hm he hn' hlt h
    obtain ⟨n, h1, h2⟩ := pow_split e hlt.le
    rw [h2, mul_comm ((2 : ℚ) ^ e), ← mul_assoc] at h
    have h := mul_right_cancel₀ (two_zpow_pos e).ne' h
    have h : m = m' * 2 ^ n := by exact_mod_cast h
    have h3 : 2 ^ 52 ≤ m' := by rcases hn' with h | h; exact h; omega
    have h4 : 2 ^ 1 ≤ 2 ^ n := Nat.pow_le_pow_right (by omega) (by omega)
    have : 2 ^ 52 * 2 ^ 1 ≤ m' * 2 ^ n := Nat.mul_le_mul h3 h4
    omega
  rcases lt_trichotomy e e' with hlt | heq | hlt
  · exact (key hm he hn' hlt h).elim
  · subst heq
    exact ⟨by exact_mod_cast mul_right_cancel₀ (two_zpow_pos e).ne' h, rfl⟩
  · exact (key hm' he' hn hlt h.symm).elim

theorem binary_succ {m : ℕ} {e : ℤ} (hm : m < 2 ^ 53) (he : -1074 ≤ e) : IsBinary ((m + 1 : ℕ) * 2 ^ e) := by
  by_cases h : m + 1 < 2 ^ 53
  · exact ⟨m + 1, e, h, he, rfl⟩
  · refine ⟨2 ^ 52, e + 1, by norm_num, by omega, ?_⟩
    rw [show m + 1 = 2 ^ 53 by omega, zpow_add₀ (by norm_num), zpow_one]
    push_cast; ring

/-- two encodings of even numbers that are equally near -/
theorem no_tie {q : ℚ} {m m' : ℕ} {e e' : ℤ} (hm : m < 2 ^ 53) (hm' : m' < 2 ^ 53) (he : -1074 ≤ e)
    (he' : -1074 ≤ e') (hn : 2 ^ 52 ≤ m ∨ e = -1074) (near : ∀ y, IsBinary y → |m * 2 ^ e - q| ≤ |y - q|)
    (hlt : (m : ℚ) * 2 ^ e < m' * 2 ^ e') (ht : |(m' : ℚ) * 2 ^ e' - q| = |m * 2 ^ e - q|) (h2 : m % 2 = 0)
    (h2' : m' % 2 = 0) : False := by
  have hq : q = (m * 2 ^ e + m' * 2 ^ e') / 2 := by
    rcases abs_eq_abs.1 ht with h | h <;> linarith
  have hle : (m' : ℚ) * 2 ^ e' ≤ (m + 1 : ℕ) * 2 ^ e := by
    by_contra hc
    have hc := not_le.1 hc
    have hgt : (m : ℚ) * 2 ^ e < (m + 1 : ℕ) * 2 ^ e := by
      have := two_zpow_pos e
      push_cast; linarith
    have := near _ (binary_succ hm he)
    rw [abs_of_neg (show (m : ℚ) * 2 ^ e - q < 0 by linarith)] at this
    rcases abs_cases (((m + 1 : ℕ) : ℚ) * 2 ^ e - q) with ⟨h, _⟩ | ⟨h, _⟩ <;> rw [h] at this <;> linarith
  have hee : e ≤ e' := by
    by_contra hc
    have h52 : 2 ^ 52 ≤ m := by rcases hn with h | h; exact h; omega
    have h52 : (2 : ℚ) ^ 52 ≤ m := by exact_mod_cast h52
    have := binary_lt hm' (show e' < e by omega)
    have : (2 : ℚ) ^ 52 * 2 ^ e ≤ m * 2 ^ e := by gcongr
    linarith
  obtain ⟨n, hn1, hn2⟩ := pow_split e hee
  rw [hn2, mul_comm ((2 : ℚ) ^ e), ← mul_assoc] at hlt hle
  have h3 := lt_of_mul_lt_mul_right hlt (two_zpow_pos e).le
  have h4 := le_of_mul_le_mul_right hle (two_zpow_pos e)
  have h3 : m < m' * 2 ^ n := by exact_mod_cast h3
  have h4 : m' * 2 ^ n ≤ m + 1 := by exact_mod_cast h4
  have h5 : (m' * 2 ^ n) % 2 = 0 := by rw [Nat.mul_mod, h2']; simp
  omega

theorem fin_not_inf {q : ℚ} {m : ℕ} {e : ℤ} (hm : m < 2 ^ 53) (he' : e ≤ 971)
    (near : ∀ y, IsBinary y → |m * 2 ^ e - q| ≤ |y - q|)
    (even : ∀ y, IsBinary y → y ≠ m * 2 ^ e → |y - q| = |m * 2 ^ e - q| → m % 2 = 0)
    (h : (2 ^ 53 - 1 / 2) * 2 ^ 971 ≤ q) : False := by
  have e971 : (2 : ℚ) ^ (971 : ℤ) = 2 ^ 971 := zpow_natCast 2 971
  have e972 : (2 : ℚ) ^ (972 : ℤ) = 2 ^ 971 * 2 := by
    rw [← e971, show (972 : ℤ) = 971 + 1 by rfl, zpow_add₀ (by norm_num), zpow_one]
  have hp : (0 : ℚ) < 2 ^ 971 := by positivity
  generalize (2 : ℚ) ^ 971 = P at *
  have hy : IsBinary (2 ^ 53 * P) := ⟨2 ^ 52, 972, by norm_num, by norm_num, by rw [e972]; push_cast; ring⟩
  have hv : (m : ℚ) * 2 ^ e ≤ (2 ^ 53 - 1) * P ∧ ((m : ℚ) * 2 ^ e = (2 ^ 53 - 1) * P → m = 2 ^ 53 - 1) := by
    rcases lt_or_eq_of_le he' with hlt | heq
    · have := binary_lt hm hlt
      rw [e971] at this
      clear e971 e972
      have h2 : (2 : ℚ) ^ 52 * P < (2 ^ 53 - 1) * P := by gcongr; norm_num
      exact ⟨by linarith, fun h => absurd h (by linarith)⟩
    · subst heq
      rw [e971]
      have h1 : (m : ℚ) + 1 ≤ 2 ^ 53 := by exact_mod_cast hm
      refine ⟨by gcongr; linarith, fun h => ?_⟩
      have h := mul_right_cancel₀ hp.ne' h
      have : (m : ℚ) + 1 = 2 ^ 53 := by linarith
      have : m + 1 = 2 ^ 53 := by exact_mod_cast this
      omega
  clear e971 e972
  obtain ⟨v1, v2⟩ := hv
  have hne : (2 : ℚ) ^ 53 * P ≠ m * 2 ^ e := by
    intro h; rw [← h] at v1; linarith
  have hlt : (m : ℚ) * 2 ^ e - q < 0 := by linarith
  have hn := near _ hy
  rw [abs_of_neg hlt] at hn
  rcases le_total (2 ^ 53 * P) q with hq | hq
  · rw [abs_of_nonpos (by linarith)] at hn
    linarith
  · rw [abs_of_nonneg (by linarith)] at hn
    have h1 : (m : ℚ) * 2 ^ e = (2 ^ 53 - 1) * P := by linarith
    have := even _ hy hne (by rw [abs_of_neg hlt, abs_of_nonneg (by linarith)]; linarith)
    rw [v2 h1] at this
    exact absurd this (by norm_num)

/-- there is only one -/
theorem rounds_unique {neg : Bool} {q : ℚ} {x y : Dbl} (hx : Rounds neg q x) (hy : Rounds neg q y) : x = y := by
  cases hx with
  | @fin m e hm he he' hn near even =>
    cases hy with
    | inf h => exact (fin_not_inf hm he' near even h).elim
    | @fin m' e' hm' ge ge' gn near' even' =>
      have b : IsBinary ((m : ℚ) * 2 ^ e) := ⟨m, e, hm, he, rfl⟩
      have b' : IsBinary ((m' : ℚ) * 2 ^ e') := ⟨m', e', hm', ge, rfl⟩
      have ht := le_antisymm (near _ b') (near' _ b)
      rcases lt_trichotomy ((m : ℚ) * 2 ^ e) (m' * 2 ^ e') with h | h | h
      · exact (no_tie hm hm' he ge hn near h ht.symm (even _ b' h.ne' ht.symm) (even' _ b h.ne ht)).elim
      · obtain ⟨rfl, rfl⟩ := encoding_unique hm hm' he ge hn gn h; rfl
      · exact (no_tie hm' hm ge he gn near' h ht (even' _ b h.ne' ht) (even _ b' h.ne ht.symm)).elim
  | inf h =>
    cases hy with
    | inf _ => rfl
    | fin hm' ge ge' gn near' even' => exact (fin_not_inf hm' ge' near' even' h).elim

/-- `roundDbl` is rounding -/
theorem roundDbl_iff {neg : Bool} {num den : ℕ} {x : Dbl} (hd : 0 < den) :
    roundDbl neg num den = x ↔ Rounds neg (num / den) x :=
  ⟨fun h => h ▸ roundDbl_rounds hd, fun h => rounds_unique (roundDbl_rounds hd) h⟩

/-- decimal numbers are rounded -/
theorem decDbl_iff {neg : Bool} {n : ℕ} {k : ℤ} {x : Dbl} : decDbl neg n k = x ↔ Rounds neg (n * 10 ^ k) x := by
  unfold decDbl
  split
  · next h =>
    obtain ⟨j, rfl⟩ := Int.eq_ofNat_of_zero_le h
    rw [roundDbl_iff (by norm_num)]
    simp
  · next h =>
    obtain ⟨j, hj⟩ := Int.eq_ofNat_of_zero_le (show 0 ≤ -k by omega)
    have : k = -(j : ℤ) := by omega
    subst this
    rw [roundDbl_iff (by positivity)]
    simp [div_eq_mul_inv]

theorem dblFrac_val (m : ℕ) (e : ℤ) : ((dblFrac m e).1 : ℚ) / (dblFrac m e).2 = m * 2 ^ e ∧ 0 < (dblFrac m e).2 := by
  unfold dblFrac
  split
  · next h =>
    obtain ⟨j, rfl⟩ := Int.eq_ofNat_of_zero_le h
    simp
  · next h =>
    obtain ⟨j, hj⟩ := Int.eq_ofNat_of_zero_le (show 0 ≤ -e by omega)
    have : e = -(j : ℤ) := by omega
    subst this
    simp [div_eq_mul_inv]

theorem divNat_iff {x y : Dbl} {d : ℕ} (hd : 0 < d) : x.divNat d = y ↔ QuotientOf d x y := by
  cases x with
  | nan => exact ⟨fun h => h ▸ .nan, fun h => by cases h; rfl⟩
  | inf neg => exact ⟨fun h => h ▸ .inf, fun h => by cases h; rfl⟩
  | fin neg m e =>
    obtain ⟨h1, h2⟩ := dblFrac_val m e
    have hq : ((dblFrac m e).1 : ℚ) / ((dblFrac m e).2 * d : ℕ) = m * 2 ^ e / d := by
      rw [← h1]; push_cast; rw [div_div]
    show roundDbl neg _ _ = y ↔ _
    rw [roundDbl_iff (by positivity), hq]
    exact ⟨fun h => .fin h, fun h => by cases h; assumption⟩

theorem rne_iff {a b n : ℕ} (hb : 0 < b) : rne a b = n ↔ NearestInt (a / b) n := by
  obtain ⟨r1, r2⟩ := rne_near (a := a) hb
  constructor
  · rintro rfl
    exact ⟨fun k => (int_far r1).1, fun k hk h => r2 ((int_far (k := k) r1).2 hk h)⟩
  · rintro ⟨h1, h2⟩
    by_contra hne
    have ht := le_antisymm (h1 (rne a b)) (int_far (k := n) r1).1
    have e1 := h2 _ hne ht.symm
    have e2 := r2 ((int_far r1).2 (Ne.symm hne) ht)
    -- two even integers at the same distance of at most a half
    have h3 := abs_le.1 r1
    have h4 := abs_le.1 (ht ▸ r1)
    have : ((rne a b : ℕ) : ℤ) - n ≤ 1 := by
      have : ((rne a b : ℕ) : ℚ) - n ≤ 1 := by linarith [h3.2, h4.1]
      exact_mod_cast this
    have : (n : ℤ) - (rne a b : ℕ) ≤ 1 := by
      have : (n : ℚ) - (rne a b : ℕ) ≤ 1 := by linarith [h3.1, h4.2]
      exact_mod_cast this
    omega

end Py
