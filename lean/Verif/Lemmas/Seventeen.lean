import Verif.Lemmas.Short
import Mathlib.Algebra.Order.Archimedean.Basic
import Mathlib.Algebra.Order.Floor.Semiring
import Mathlib.Data.Rat.Floor
/-!
# Seventeen digits are enough for a double
-/
namespace Py
open Spec Arinc

/-- the next greater double -/
theorem gap_above {m : ℕ} {e : ℤ} (hn : 2 ^ 52 ≤ m ∨ e = -1074) {y : ℚ} (hy : IsBinary y) (h : m * 2 ^ e < y) :
    m * 2 ^ e + 2 ^ e ≤ y := by
  have hp := two_zpow_pos e
  obtain ⟨m', e', hm', he', rfl⟩ := hy
  by_cases hee : e ≤ e'
  · obtain ⟨n, _, hn⟩ := pow_split e hee
    have hk : (m' : ℚ) * 2 ^ e' = ((m' * 2 ^ n : ℕ) : ℚ) * 2 ^ e := by rw [hn]; push_cast; ring
    rw [hk] at h ⊢
    have h1 : (m : ℚ) < (m' * 2 ^ n : ℕ) := lt_of_mul_lt_mul_right h hp.le
    have h2 : (m : ℚ) + 1 ≤ (m' * 2 ^ n : ℕ) := by exact_mod_cast h1
    calc (m : ℚ) * 2 ^ e + 2 ^ e = (m + 1) * 2 ^ e := by ring
      _ ≤ _ := by gcongr
  · have hm : 2 ^ 52 ≤ m := by rcases hn with h | h; exact h; omega
    have hm2 : (2 : ℚ) ^ 52 ≤ m := by exact_mod_cast hm
    have := binary_lt hm' (show e' < e by omega)
    have : (2 : ℚ) ^ 52 * 2 ^ e ≤ m * 2 ^ e := by gcongr
    linarith

/-- the next smaller double: half as far away below a power of two -/
theorem gap_below {m : ℕ} {e : ℤ} (hn : 2 ^ 52 ≤ m ∨ e = -1074) {y : ℚ} (hy : IsBinary y) (h : y < m * 2 ^ e) :
    y + 2 ^ e / 2 ≤ m * 2 ^ e ∧ (m ≠ 2 ^ 52 → y + 2 ^ e ≤ m * 2 ^ e) := by
  have hp := two_zpow_pos e
  obtain ⟨m', e', hm', he', rfl⟩ := hy
  by_cases hee : e ≤ e'
  · obtain ⟨n, _, hn⟩ := pow_split e hee
    have hk : (m' : ℚ) * 2 ^ e' = ((m' * 2 ^ n : ℕ) : ℚ) * 2 ^ e := by rw [hn]; push_cast; ring
    rw [hk] at h ⊢
    have h1 : ((m' * 2 ^ n : ℕ) : ℚ) < m := lt_of_mul_lt_mul_right h hp.le
    have h2 : ((m' * 2 ^ n : ℕ) : ℚ) + 1 ≤ m := by exact_mod_cast h1
    have h3 : ((m' * 2 ^ n : ℕ) : ℚ) * 2 ^ e + 2 ^ e ≤ m * 2 ^ e := by
      calc ((m' * 2 ^ n : ℕ) : ℚ) * 2 ^ e + 2 ^ e = ((m' * 2 ^ n : ℕ) + 1) * 2 ^ e := by ring
        _ ≤ _ := by gcongr
    exact ⟨by linarith, fun _ => h3⟩
  · have hm : 2 ^ 52 ≤ m := by rcases hn with h | h; exact h; omega
    have hm2 : (2 : ℚ) ^ 52 ≤ m := by exact_mod_cast hm
    have hlt := binary_lt hm' (show e' < e by omega)
    have hle : (2 : ℚ) ^ 52 * 2 ^ e ≤ m * 2 ^ e := by gcongr
    constructor
    · by_cases h1 : e' = e - 1
      · have e2 : (2 : ℚ) ^ e = 2 ^ e' * 2 := by rw [h1, zpow_sub₀ (by norm_num), zpow_one]; field_simp
        have hp' := two_zpow_pos e'
        have h2 : (m' : ℚ) + 1 ≤ 2 ^ 53 := by exact_mod_cast hm'
        have h3 : ((m' : ℚ) + 1) * 2 ^ e' ≤ 2 ^ 53 * 2 ^ e' := by gcongr
        rw [e2] at hle ⊢
        linarith
      · have h2 : (m' : ℚ) * 2 ^ e' < 2 ^ 52 * 2 ^ (e - 1) := binary_lt hm' (by omega)
        have e2 : (2 : ℚ) ^ (e - 1) = 2 ^ e / 2 := by rw [zpow_sub₀ (by norm_num), zpow_one]
        rw [e2] at h2
        linarith
    · intro hne
      have h3 : (2 : ℚ) ^ 52 + 1 ≤ m := by exact_mod_cast (show 2 ^ 52 + 1 ≤ m by omega)
      have h4 : ((2 : ℚ) ^ 52 + 1) * 2 ^ e ≤ m * 2 ^ e := by gcongr
      linarith

/-- what is near enough to a double is rounded to it -/
theorem rounds_close {neg : Bool} {m : ℕ} {e : ℤ} (hm : m < 2 ^ 53) (he : -1074 ≤ e) (he' : e ≤ 971)
    (hn : 2 ^ 52 ≤ m ∨ e = -1074) {q : ℚ} (h1 : q < m * 2 ^ e + 2 ^ e / 2)
    (h2 : m * 2 ^ e - q < if m = 2 ^ 52 then 2 ^ e / 4 else 2 ^ e / 2) : Rounds neg q (.fin neg m e) := by
  have lo : ∀ y, IsBinary y → y < m * 2 ^ e → (m : ℚ) * 2 ^ e + y < 2 * q := by
    intro y hy hlt
    obtain ⟨g1, g2⟩ := gap_below hn hy hlt
    split at h2
    · linarith
    · next hne => linarith [g2 hne]
  have hi : ∀ y, IsBinary y → m * 2 ^ e < y → 2 * q < (m : ℚ) * 2 ^ e + y := by
    intro y hy hlt
    linarith [gap_above hn hy hlt]
  refine .fin hm he he' hn (fun y hy => near_iff.2 ⟨fun h => (hi y hy h).le, fun h => (lo y hy h).le⟩)
    (fun y hy hne ht => ?_)
  have := (tie_iff hne).1 ht
  rcases lt_or_gt_of_ne hne with h | h
  · linarith [lo y hy h]
  · linarith [hi y hy h]

/-- seventeen digits are enough -/
theorem digits_17 {m n : ℕ} {e k : ℤ} (h0 : m ≠ 0) (back : Rounds false (n * 10 ^ k) (.fin false m e))
    (short : ∀ (n' : ℕ) (k' : ℤ), Rounds false (n' * 10 ^ k') (.fin false m e) → k' ≤ k)
    (near : ∀ n' : ℕ, Rounds false (n' * 10 ^ k) (.fin false m e) →
        |(n * 10 ^ k : ℚ) - m * 2 ^ e| ≤ |(n' * 10 ^ k : ℚ) - m * 2 ^ e|) : n < 10 ^ 17 := by
  have hm0 : (0 : ℚ) < m := by exact_mod_cast Nat.pos_of_ne_zero h0
  have hp := two_zpow_pos e
  have hv : (0 : ℚ) < m * 2 ^ e := by positivity
  obtain ⟨hm, he, he', hn⟩ : m < 2 ^ 53 ∧ -1074 ≤ e ∧ e ≤ 971 ∧ (2 ^ 52 ≤ m ∨ e = -1074) := by
    cases back with
    | fin hm he he' hn _ _ => exact ⟨hm, he, he', hn⟩
  obtain ⟨l, hl1, hl2⟩ := exists_mem_Ico_zpow hv (show (1 : ℚ) < 10 by norm_num)
  -- the digits with 16 behind the first one
  generalize hk0 : l - 16 = k0
  have ht := ten_zpow_pos k0
  have ten : (10 : ℚ) ≠ 0 := by norm_num
  have e1 : (10 : ℚ) ^ l = 10 ^ 16 * 10 ^ k0 := by
    rw [← hk0, zpow_sub₀ ten]; norm_cast; field_simp
  have e2 : (10 : ℚ) ^ (l + 1) = 10 ^ 17 * 10 ^ k0 := by rw [zpow_add₀ ten, e1, zpow_one]; ring
  rw [e1] at hl1
  rw [e2] at hl2
  have hmq : (m : ℚ) < 2 ^ 53 := by exact_mod_cast hm
  generalize hr : (m : ℚ) * 2 ^ e / 10 ^ k0 = r
  have hr' : (m : ℚ) * 2 ^ e = r * 10 ^ k0 := by rw [← hr]; field_simp
  have hr0 : 0 < r := by rw [← hr]; positivity
  have hr17 : r < 10 ^ 17 := by
    rw [hr'] at hl2
    exact lt_of_mul_lt_mul_right hl2 ht.le
  have f1 := Nat.floor_le (show 0 ≤ r + 1 / 2 by linarith)
  have f2 := Nat.lt_floor_add_one (r + 1 / 2)
  generalize ⌊r + 1 / 2⌋₊ = n0 at f1 f2
  have b1 : (n0 : ℚ) * 10 ^ k0 ≤ m * 2 ^ e + 10 ^ k0 / 2 := by
    have : (n0 : ℚ) * 10 ^ k0 ≤ (r + 1 / 2) * 10 ^ k0 := by gcongr
    rw [hr']; linarith
  have b2 : m * 2 ^ e - 10 ^ k0 / 2 ≤ (n0 : ℚ) * 10 ^ k0 := by
    have : (r + 1 / 2) * 10 ^ k0 ≤ (n0 + 1) * 10 ^ k0 := by gcongr
    rw [hr']; linarith
  have hlt : (10 : ℚ) ^ k0 < 2 ^ e := by
    have h1 : (m : ℚ) * 2 ^ e < 2 ^ 53 * 2 ^ e := by gcongr
    norm_num at h1 hl1
    linarith
  have hback : Rounds false (n0 * 10 ^ k0) (.fin false m e) := by
    refine rounds_close hm he he' hn (by linarith) ?_
    split
    · next h =>
      have : (m : ℚ) = 2 ^ 52 := by exact_mod_cast h
      rw [this] at hl1
      norm_num at hl1
      linarith
    · linarith
  have hkk := short n0 k0 hback
  rcases eq_or_lt_of_le hkk with rfl | hlt'
  · have h1 := near n0 hback
    have h2 : |(n0 * 10 ^ k0 : ℚ) - m * 2 ^ e| ≤ 10 ^ k0 / 2 := abs_le.2 ⟨by linarith, by linarith⟩
    have h3 := (abs_le.1 (h1.trans h2)).2
    rw [hr'] at h3
    have h4 : (n : ℚ) * 10 ^ k0 < (10 ^ 17 + 1) * 10 ^ k0 := by
      have : r * 10 ^ k0 < 10 ^ 17 * 10 ^ k0 := by gcongr
      linarith
    have h5 : (n : ℚ) < 10 ^ 17 + 1 := lt_of_mul_lt_mul_right h4 ht.le
    have h6 : n < 10 ^ 17 + 1 := by exact_mod_cast h5
    have h7 := no_trailing_zero back short
    have : n ≠ 10 ^ 17 := by rintro rfl; exact h7 (by norm_num)
    omega
  · have h1 := (rounds_bound h0 back).2
    have h2 : (10 : ℚ) ^ (k0 + 1) ≤ 10 ^ k := zpow_le_zpow_right₀ (by norm_num) (by omega)
    rw [zpow_add₀ ten, zpow_one] at h2
    have hk := ten_zpow_pos k
    have h3 : (n : ℚ) * 10 ^ k < 10 ^ 17 * 10 ^ k := by
      norm_num at hl2 ⊢
      linarith
    have h4 : (n : ℚ) < 10 ^ 17 := lt_of_mul_lt_mul_right h3 hk.le
    exact_mod_cast h4

/-- a power of ten above every double -/
theorem double_lt {m : ℕ} {e : ℤ} (hm : m < 2 ^ 53) (he' : e ≤ 971) : (m : ℚ) * 2 ^ e < 10 ^ (309 : ℤ) := by
  have h1 : (m : ℚ) < 2 ^ 53 := by exact_mod_cast hm
  have h2 : (2 : ℚ) ^ e ≤ 2 ^ (971 : ℤ) := zpow_le_zpow_right₀ (by norm_num) he'
  have h3 := two_zpow_pos e
  have h4 : (2 : ℚ) ^ 53 * 2 ^ (971 : ℤ) ≤ 10 ^ (309 : ℤ) := by
    have h : (2 : ℕ) ^ 53 * 2 ^ 971 ≤ 10 ^ 309 := by decide +kernel
    have h := (Nat.cast_le (α := ℚ)).2 h
    rw [Nat.cast_mul, Nat.cast_pow, Nat.cast_pow, Nat.cast_pow, Nat.cast_ofNat, Nat.cast_ofNat] at h
    rwa [zpow_ofNat, zpow_ofNat]
  calc (m : ℚ) * 2 ^ e < 2 ^ 53 * 2 ^ e := by gcongr
    _ ≤ 2 ^ 53 * 2 ^ (971 : ℤ) := by gcongr
    _ ≤ _ := h4

/-- a power of ten below every double but zero -/
theorem double_gt {m : ℕ} {e : ℤ} (hm : m ≠ 0) (he : -1074 ≤ e) : (10 : ℚ) ^ (-324 : ℤ) < m * 2 ^ e / 2 := by
  have h1 : (1 : ℚ) ≤ m := by exact_mod_cast Nat.pos_of_ne_zero hm
  have h2 : (2 : ℚ) ^ (-1074 : ℤ) ≤ 2 ^ e := zpow_le_zpow_right₀ (by norm_num) he
  have h3 := two_zpow_pos e
  have h4 : (10 : ℚ) ^ (-324 : ℤ) < 2 ^ (-1074 : ℤ) / 2 := by
    have h : 2 * (2 : ℕ) ^ 1074 < 10 ^ 324 := by decide +kernel
    have h := (Nat.cast_lt (α := ℚ)).2 h
    rw [Nat.cast_mul, Nat.cast_pow, Nat.cast_pow, Nat.cast_ofNat, Nat.cast_ofNat] at h
    rw [zpow_neg, zpow_neg, lt_div_iff₀ (by norm_num), inv_mul_lt_iff₀ (by positivity), ← div_eq_mul_inv,
      lt_div_iff₀ (by positivity), zpow_ofNat, zpow_ofNat]
    exact h
  have h5 : 1 * (2 : ℚ) ^ e ≤ m * 2 ^ e := by gcongr
  linarith

/-- how long the text of a double can be -/
theorem short_length {x : Dbl} {s : Str} (h : ShortText x s) : s.length ≤ 24 := by
  cases h with
  | nan => decide
  | inf => decide
  | negInf => decide
  | @zero neg e => cases neg <;> decide
  | @fin neg m n e k s h0 back short near even hs =>
    have hd17 := digits_17 h0 back short near
    have hn0 := rounds_ne_zero h0 back
    have hsign : (if neg then py!"-" else ([] : Str)).length ≤ 1 := by cases neg <;> decide
    rw [List.length_append]
    suffices s.length ≤ 23 by omega
    obtain ⟨hm, he, he', hn⟩ : m < 2 ^ 53 ∧ -1074 ≤ e ∧ e ≤ 971 ∧ (2 ^ 52 ≤ m ∨ e = -1074) := by
      cases back with
      | fin hm he he' hn _ _ => exact ⟨hm, he, he', hn⟩
    have hb := rounds_bound h0 back
    have hlow : (m : ℚ) * 2 ^ e / 2 ≤ n * 10 ^ k := by
      have hm0 : (0 : ℚ) < m := by exact_mod_cast Nat.pos_of_ne_zero h0
      have hv : (0 : ℚ) < m * 2 ^ e := by have := two_zpow_pos e; positivity
      cases back with
      | fin _ _ _ _ near _ =>
        have h0 : IsBinary 0 := ⟨0, 0, by norm_num, by norm_num, by norm_num⟩
        have := (near_iff.1 (near _ h0)).2 hv
        linarith
    cases hs with
    | @whole j ds hd hl =>
      simp only [List.length_append, List.length_replicate, List.length_cons, List.length_nil]
      omega
    | @point ip fp hd hi hf hl =>
      have := decimal_length_lt hd (by norm_num) hd17
      simp only [List.length_append, List.length_cons, List.length_nil] at this ⊢
      omega
    | @small j ds hd hj =>
      have := decimal_length_lt hd (by norm_num) hd17
      simp only [List.length_append, List.length_replicate, List.length_cons, List.length_nil] at this ⊢
      omega
    | @exponent _ c ds ex ng ee hd hk hee hex hex2 =>
      have h17 := decimal_length_lt hd (by norm_num) hd17
      obtain ⟨a1, a2⟩ := decimal_bounds hd hn0
      have hx : ex.length ≤ 3 := by
        rcases hex2 with h | ⟨_, hx⟩
        · omega
        · refine decimal_length_lt hx (by norm_num) ?_
          have e1 : ((10 ^ ds.length : ℕ) : ℚ) * 10 ^ k = 10 ^ (k + ds.length) := by
            rw [zpow_add₀ (by norm_num), zpow_natCast]; push_cast; ring
          have e2 : ((10 ^ (ds.length + 1) : ℕ) : ℚ) * 10 ^ k = 10 ^ (k + ds.length + 1) := by
            rw [zpow_add₀ (by norm_num), zpow_add₀ (by norm_num), zpow_natCast]; push_cast; ring
          have hk0 := ten_zpow_pos k
          have c1 : ((10 ^ ds.length : ℕ) : ℚ) * 10 ^ k ≤ n * 10 ^ k := by
            have : ((10 ^ ds.length : ℕ) : ℚ) ≤ n := by exact_mod_cast (by simpa using a1)
            gcongr
          have c2 : (n : ℚ) * 10 ^ k ≤ ((10 ^ (ds.length + 1) : ℕ) : ℚ) * 10 ^ k := by
            have : (n : ℚ) ≤ ((10 ^ (ds.length + 1) : ℕ) : ℚ) := by exact_mod_cast (by simpa using a2.le)
            gcongr
          rw [e1] at c1
          rw [e2] at c2
          have u := double_lt hm he'
          have l := double_gt h0 he
          have d1 : (10 : ℚ) ^ (k + ds.length) < 10 ^ (310 : ℤ) := by
            have : (10 : ℚ) ^ (310 : ℤ) = 10 ^ (309 : ℤ) * 10 := by
              rw [show (310 : ℤ) = 309 + 1 from rfl, zpow_add₀ (by norm_num), zpow_one]
            rw [this]
            have hT := ten_zpow_pos 309
            clear l
            generalize (10 : ℚ) ^ (309 : ℤ) = T at u hT ⊢
            linarith [hb.2]
          have d2 : (10 : ℚ) ^ (-324 : ℤ) < 10 ^ (k + ds.length + 1) := by linarith
          have d3 := (zpow_lt_zpow_iff_right₀ (show (1 : ℚ) < 10 by norm_num)).1 d1
          have d4 := (zpow_lt_zpow_iff_right₀ (show (1 : ℚ) < 10 by norm_num)).1 d2
          cases ng
          · simp only [Bool.false_eq_true, if_false] at hk; omega
          · simp only [if_true] at hk; omega
      have hi : (if ds = [] then ([] : Str) else py!"." ++ ds).length ≤ 1 + ds.length := by
        split
        · simp
        · simp; omega
      have hg : (if ng then py!"-" else py!"+").length = 1 := by cases ng <;> rfl
      simp only [List.length_append, List.length_cons, List.length_nil, hg] at h17 ⊢
      omega

end Py
