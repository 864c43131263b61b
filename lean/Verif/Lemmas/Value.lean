import Verif.Spec.Value
import Verif.Lemmas.Num
import Verif.Lemmas.Parse
/-! Helper lemmas: numerals, rounding, formatting. -/
namespace Arinc
open Py Spec

/-! ### numerals -/

theorem foldl_digits (s : Str) (a : Nat) :
    s.foldl (fun a c => a * 10 + (c - 48)) a = a * 10 ^ s.length + digitSum s := by
  induction s generalizing a with
  | nil => simp [digitSum]
  | cons c s ih =>
    rw [List.foldl_cons, ih, digitSum, List.length_cons, Nat.pow_succ, Nat.add_mul]
    rw [show a * 10 * 10 ^ s.length = a * (10 ^ s.length * 10) by
      rw [Nat.mul_assoc, Nat.mul_comm 10]]
    omega

theorem digitsVal_eq (s : Str) : digitsVal s = digitSum s := by
  unfold digitsVal; rw [foldl_digits]; simp

theorem numeral_digits {s : Str} {n : Nat} (h : Numeral s n) : Digits s :=
  ⟨h.1, fun c hc => isDigit_iff.2 (h.2.1 c hc)⟩

theorem numeral_val {s : Str} {n : Nat} (h : Numeral s n) : digitsVal s = n := by
  rw [digitsVal_eq]; exact h.2.2

theorem digitSum_append (s t : Str) : digitSum (s ++ t) = digitSum s * 10 ^ t.length + digitSum t := by
  induction s with
  | nil => simp [digitSum]
  | cons c s ih =>
    rw [List.cons_append, digitSum, digitSum, ih, List.length_append, Nat.pow_add, Nat.add_mul]
    rw [Nat.mul_assoc]; omega

theorem digitSum_lt {s : Str} (h : ∀ c ∈ s, 48 ≤ c ∧ c ≤ 57) : digitSum s < 10 ^ s.length := by
  induction s with
  | nil => simp [digitSum]
  | cons c s ih =>
    have h1 := ih (fun d hd => h d (by simp [hd]))
    have h2 := h c (by simp)
    rw [digitSum, List.length_cons, Nat.pow_succ]
    have : (c - 48) * 10 ^ s.length ≤ 9 * 10 ^ s.length := Nat.mul_le_mul_right _ (by omega)
    omega

theorem digitSum_replicate (k : Nat) (s : Str) : digitSum (List.replicate k 48 ++ s) = digitSum s := by
  induction k with
  | zero => rfl
  | succ k ih => rw [List.replicate_succ, List.cons_append, digitSum, ih]; simp

/-! `str(n)` -/

theorem natStrAux_append (fuel n : Nat) (acc : Str) :
    natStrAux fuel n acc = natStrAux fuel n [] ++ acc := by
  induction fuel generalizing n acc with
  | zero => rfl
  | succ f ih =>
    rw [natStrAux, natStrAux]
    split
    · rfl
    · rw [ih, ih (acc := [48 + n % 10])]; simp

theorem natStrAux_decimal (fuel n : Nat) (h : n < fuel) : Decimal (natStrAux fuel n []) n := by
  induction fuel generalizing n with
  | zero => omega
  | succ f ih =>
    rw [natStrAux]
    split
    · next h0 =>
      have hn : n < 10 := by omega
      refine ⟨⟨by simp, ?_, ?_⟩, ?_⟩
      · intro c hc; simp only [List.mem_singleton] at hc; omega
      · simp [digitSum]; omega
      · simp
    · next h0 =>
      have hlt : n / 10 < f := by omega
      obtain ⟨⟨h1, h2, h3⟩, h4⟩ := ih (n / 10) hlt
      rw [natStrAux_append]
      refine ⟨⟨by simp, ?_, ?_⟩, ?_⟩
      · intro c hc
        rcases List.mem_append.1 hc with hc | hc
        · exact h2 c hc
        · simp only [List.mem_singleton] at hc; omega
      · rw [digitSum_append, h3]; simp [digitSum]; omega
      · intro hh
        rw [List.head?_append] at hh
        cases hd : natStrAux f (n / 10) [] with
        | nil => exact absurd hd h1
        | cons c s =>
          rw [hd] at hh h3 h4
          simp only [List.head?_cons, Option.some_or, Option.some.injEq] at hh
          subst hh
          have := h4 rfl
          rw [this] at h3
          simp [digitSum] at h3
          exact absurd h3.symm h0

theorem natStr_decimal (n : Nat) : Decimal (natStr n) n := natStrAux_decimal _ _ (by omega)

theorem digitSum_pos {s : Str} {c : Nat} (hc : 49 ≤ c) : 10 ^ s.length ≤ digitSum (c :: s) := by
  rw [digitSum]
  have : 1 * 10 ^ s.length ≤ (c - 48) * 10 ^ s.length := Nat.mul_le_mul_right _ (by omega)
  omega

/-- numerals of the same length with the same value are equal -/
theorem numeral_unique_length {s t : Str} (hs : ∀ c ∈ s, 48 ≤ c ∧ c ≤ 57) (ht : ∀ c ∈ t, 48 ≤ c ∧ c ≤ 57)
    (hl : s.length = t.length) (hv : digitSum s = digitSum t) : s = t := by
  induction s generalizing t with
  | nil => cases t with
    | nil => rfl
    | cons => cases hl
  | cons c s ih =>
    cases t with
    | nil => cases hl
    | cons d t =>
      simp only [List.length_cons, Nat.add_right_cancel_iff] at hl
      rw [digitSum, digitSum, hl] at hv
      have h1 := digitSum_lt (s := s) (fun x hx => hs x (by simp [hx]))
      have h2 := digitSum_lt (s := t) (fun x hx => ht x (by simp [hx]))
      have hc := hs c (by simp)
      have hd := ht d (by simp)
      rw [hl] at h1
      have hcd : c - 48 = d - 48 := by
        have e1 : ((c - 48) * 10 ^ t.length + digitSum s) / 10 ^ t.length = c - 48 := by
          rw [Nat.mul_comm, Nat.mul_add_div (Nat.pow_pos (by omega)), Nat.div_eq_of_lt h1]; rfl
        have e2 : ((d - 48) * 10 ^ t.length + digitSum t) / 10 ^ t.length = d - 48 := by
          rw [Nat.mul_comm, Nat.mul_add_div (Nat.pow_pos (by omega)), Nat.div_eq_of_lt h2]; rfl
        rw [← e1, hv, e2]
      have : c = d := by omega
      subst this
      rw [ih (fun x hx => hs x (by simp [hx])) (fun x hx => ht x (by simp [hx])) hl (by omega)]

theorem decimal_length_le {s t : Str} {n : Nat} (hs : Decimal s n) (ht : Numeral t n) :
    s.length ≤ t.length := by
  obtain ⟨⟨h1, h2, h3⟩, h4⟩ := hs
  cases s with
  | nil => exact absurd rfl h1
  | cons c s =>
    by_cases hc : c = 48
    · subst hc
      have := h4 rfl
      rw [this]
      have : t.length ≠ 0 := by rw [Ne, List.length_eq_zero_iff]; exact ht.1
      simp; omega
    · have hc' := h2 c (by simp)
      have h5 := digitSum_pos (s := s) (c := c) (by omega)
      have h6 := digitSum_lt ht.2.1
      rw [ht.2.2, ← h3] at h6
      have : s.length < t.length := (Nat.pow_lt_pow_iff_right (a := 10) (by omega)).1 (by omega)
      simp; omega

/-- the usual decimal numeral is unique -/
theorem decimal_unique {s t : Str} {n : Nat} (hs : Decimal s n) (ht : Decimal t n) : s = t :=
  numeral_unique_length hs.1.2.1 ht.1.2.1
    (Nat.le_antisymm (decimal_length_le hs ht.1) (decimal_length_le ht hs.1))
    (by rw [hs.1.2.2, ht.1.2.2])

theorem numeral_zfill {s : Str} {n : Nat} (h : Numeral s n) (w : Nat) : Numeral (zfill w s) n := by
  refine ⟨by unfold zfill; simp [h.1], ?_, ?_⟩
  · intro c hc
    unfold zfill at hc
    rcases List.mem_append.1 hc with hc | hc
    · have := List.eq_of_mem_replicate hc; omega
    · exact h.2.1 c hc
  · unfold zfill; rw [digitSum_replicate]; exact h.2.2

theorem zfill_length (w : Nat) (s : Str) : (zfill w s).length = max w s.length := by
  unfold zfill; simp; omega

theorem decimal_length_lt {s : Str} {n d : Nat} (h : Decimal s n) (hd : 0 < d) (hn : n < 10 ^ d) :
    s.length ≤ d := by
  obtain ⟨⟨h1, h2, h3⟩, h4⟩ := h
  cases s with
  | nil => exact absurd rfl h1
  | cons c s =>
    by_cases hc : c = 48
    · subst hc; rw [h4 rfl]; simp; omega
    · have hc' := h2 c (by simp)
      have h5 := digitSum_pos (s := s) (c := c) (by omega)
      have : s.length < d := (Nat.pow_lt_pow_iff_right (a := 10) (by omega)).1 (by omega)
      simp; omega

theorem lstripZeros_decimal {s : Str} {n : Nat} (h : Numeral s n) (hn : n ≠ 0) :
    Decimal (lstripZeros s) n := by
  have h2 := h.2.1
  have h3 := h.2.2
  clear h
  induction s with
  | nil => simp [digitSum] at h3; omega
  | cons c s ih =>
    unfold lstripZeros at ih ⊢
    by_cases hc : c = 48
    · subst hc
      rw [List.dropWhile_cons_of_pos (by simp)]
      exact ih (fun d hd => h2 d (by simp [hd])) (by rw [digitSum] at h3; simpa using h3)
    · rw [List.dropWhile_cons_of_neg (by simpa using hc)]
      exact ⟨⟨by simp, h2, h3⟩, fun e => absurd (by simpa using e) hc⟩

theorem lstripZeros_zero {s : Str} (h : ∀ c ∈ s, c = 48) : lstripZeros s = [] := by
  induction s with
  | nil => rfl
  | cons c s ih =>
    unfold lstripZeros at ih ⊢
    rw [List.dropWhile_cons_of_pos (by simpa using h c (by simp))]
    exact ih (fun d hd => h d (by simp [hd]))

theorem numeral_zero {s : Str} (h : Numeral s 0) : ∀ c ∈ s, c = 48 := by
  have h2 := h.2.1
  have h3 := h.2.2
  clear h
  induction s with
  | nil => intro c hc; cases hc
  | cons d s ih =>
    rw [digitSum] at h3
    have hp : 0 < 10 ^ s.length := Nat.pow_pos (by omega)
    have hd : d - 48 = 0 := by
      rcases Nat.eq_zero_or_pos (d - 48) with h | h
      · exact h
      · have := Nat.mul_pos h hp; omega
    have hd' := h2 d (by simp)
    intro c hc
    rcases List.mem_cons.1 hc with rfl | hc
    · omega
    · exact ih (fun x hx => h2 x (by simp [hx])) (by omega) c hc

/-! ### rounding -/

theorem rne_error {a b : Nat} (hb : 0 < b) :
    2 * (rne a b * b) ≤ 2 * a + b ∧ 2 * a ≤ 2 * (rne a b * b) + b := by
  have h := Nat.div_add_mod a b
  have hm := Nat.mod_lt a hb
  have e : a / b * b = b * (a / b) := Nat.mul_comm _ _
  have e1 : (a / b + 1) * b = b * (a / b) + b := by rw [Nat.add_mul, Nat.one_mul, e]
  unfold rne
  split
  · rw [e]; omega
  · split
    · rw [e1]; omega
    · rcases Nat.mod_two_eq_zero_or_one (a / b) with h2 | h2 <;> rw [h2]
      · rw [Nat.add_zero, e]; omega
      · rw [e1]; omega

theorem rne_eq {a b n : Nat} (h1 : 2 * a < 2 * (n * b) + b) (h2 : 2 * (n * b) < 2 * a + b) :
    rne a b = n := by
  have hb : 0 < b := by
    rcases Nat.eq_zero_or_pos b with rfl | h
    · simp at h1 h2
      try omega
    · exact h
  have h := Nat.div_add_mod a b
  have hm := Nat.mod_lt a hb
  have hq : a / b ≤ n := by
    rcases Nat.lt_or_ge n (a / b) with hlt | hge
    · have : (n + 1) * b ≤ a / b * b := Nat.mul_le_mul_right _ hlt
      rw [Nat.add_mul, Nat.one_mul, Nat.mul_comm (a / b)] at this
      omega
    · exact hge
  have hn : n ≤ a / b + 1 := by
    rcases Nat.lt_or_ge (a / b + 1) n with hlt | hge
    · have : (a / b + 1 + 1) * b ≤ n * b := Nat.mul_le_mul_right _ hlt
      rw [Nat.add_mul, Nat.add_mul, Nat.one_mul, Nat.mul_comm (a / b)] at this
      omega
    · exact hge
  have hcase : n = a / b ∨ n = a / b + 1 := by omega
  unfold rne
  rcases hcase with hc | hc
  · have : n * b = b * (a / b) := by rw [hc, Nat.mul_comm]
    rw [if_pos (by omega)]; exact hc.symm
  · have : n * b = b * (a / b) + b := by rw [hc, Nat.add_mul, Nat.one_mul, Nat.mul_comm]
    rw [if_neg (by omega), if_pos (by omega)]; exact hc.symm

theorem rne_one (a : Nat) : rne a 1 = a := by
  unfold rne
  simp [Nat.mod_one]

theorem log2_mul_pow {n : Nat} (hn : n ≠ 0) (j : Nat) : Nat.log2 (n * 2 ^ j) = Nat.log2 n + j := by
  have hp : n * 2 ^ j ≠ 0 := Nat.mul_ne_zero hn (Nat.ne_of_gt (Nat.pow_pos (by omega)))
  apply Nat.le_antisymm
  · apply Nat.lt_succ_iff.1
    rw [Nat.log2_lt hp, Nat.succ_eq_add_one, show Nat.log2 n + j + 1 = (Nat.log2 n + 1) + j by omega, Nat.pow_add]
    exact Nat.mul_lt_mul_of_pos_right Nat.lt_log2_self (Nat.pow_pos (by omega))
  · rw [Nat.le_log2 hp, Nat.pow_add]
    exact Nat.mul_le_mul_right _ (Nat.log2_self_le hn)

theorem scale_neg {num den : Nat} {e : Int} (h : e < 0) : scale num den e = (num * 2 ^ (-e).toNat, den) := by
  unfold scale; rw [if_neg (by omega)]

theorem scale_nonneg {num den : Nat} {e : Int} (h : 0 ≤ e) : scale num den e = (num, den * 2 ^ e.toNat) := by
  unfold scale; rw [if_pos h]

/-- integers below 2^53 are doubles -/
theorem roundDbl_nat {n : Nat} (hn : n < 2 ^ 53) :
    ∃ m e j, roundDbl false n 1 = .fin false m e ∧ dblFrac m e = (n * 2 ^ j, 2 ^ j) := by
  by_cases h0 : n = 0
  · exact ⟨0, -1074, 1074, by unfold roundDbl; rw [if_pos h0], by
      generalize hj : (1074 : Nat) = j
      have : (-1074 : Int) = -(j : Int) := by omega
      rw [this]; unfold dblFrac; rw [if_neg (by omega), h0, Nat.zero_mul]; simp⟩
  · have hk : Nat.log2 n < 53 := (Nat.log2_lt h0).2 hn
    have hl1 : Nat.log2 1 = 0 := by decide
    have hfl : floorLog2 n 1 = (Nat.log2 n : Int) := by
      unfold floorLog2
      simp only [hl1]
      rw [scale_nonneg (by omega)]
      have : (1 * 2 ^ ((Nat.log2 n : Int) - ((0 : Nat) : Int)).toNat) ≤ n := by
        rw [show ((Nat.log2 n : Int) - ((0 : Nat) : Int)).toNat = Nat.log2 n by omega, Nat.one_mul]
        exact Nat.log2_self_le h0
      rw [if_pos this]; omega
    have he : max (floorLog2 n 1 - 52) (-1074) = (Nat.log2 n : Int) - 52 := by rw [hfl]; omega
    by_cases h52 : Nat.log2 n = 52
    · refine ⟨n, 0, 0, ?_, by simp [dblFrac]⟩
      unfold roundDbl
      simp only [he, h52]
      rw [if_neg h0, show ((52 : Nat) : Int) - 52 = 0 by rfl, scale_nonneg (by omega)]
      have : (1 * 2 ^ (Int.toNat 0)) = 1 := by decide
      simp only [this, rne_one]
      rw [if_neg (by omega), if_neg (by omega)]
    · have hlt : (Nat.log2 n : Int) - 52 < 0 := by omega
      refine ⟨n * 2 ^ (52 - Nat.log2 n), (Nat.log2 n : Int) - 52, 52 - Nat.log2 n, ?_, ?_⟩
      · unfold roundDbl
        simp only [he]
        rw [if_neg h0, scale_neg hlt]
        have hj : (-((Nat.log2 n : Int) - 52)).toNat = 52 - Nat.log2 n := by omega
        simp only [hj, rne_one]
        have hm : n * 2 ^ (52 - Nat.log2 n) ≠ 2 ^ 53 := by
          have h1 : n < 2 ^ (Nat.log2 n + 1) := Nat.lt_log2_self
          have h2 : n * 2 ^ (52 - Nat.log2 n) < 2 ^ (Nat.log2 n + 1) * 2 ^ (52 - Nat.log2 n) :=
            Nat.mul_lt_mul_of_pos_right h1 (Nat.pow_pos (by omega))
          rw [← Nat.pow_add, show Nat.log2 n + 1 + (52 - Nat.log2 n) = 53 by omega] at h2
          exact Nat.ne_of_lt h2
        rw [if_neg hm, if_neg (by omega)]
      · unfold dblFrac
        rw [if_neg (by omega), show (-((Nat.log2 n : Int) - 52)).toNat = 52 - Nat.log2 n by omega]

theorem floorLog2_le (num den : Nat) : floorLog2 num den ≤ (Nat.log2 num : Int) - Nat.log2 den := by
  unfold floorLog2; simp only; split <;> omega

/-- `n / D` as a double is closer to `n / D` than half a unit in the last decimal -/
theorem roundDbl_div {n D j : Nat} (hn : n < 2 ^ 51) (hD : 0 < D) (hD' : D < 2 ^ 10) :
    ∃ m e, roundDbl false (n * 2 ^ j) (2 ^ j * D) = .fin false m e ∧
      rne ((dblFrac m e).1 * D) (dblFrac m e).2 = n := by
  have hp : (0 : Nat) < 2 ^ j := Nat.pow_pos (by omega)
  by_cases h0 : n = 0
  · refine ⟨0, -1074, by unfold roundDbl; rw [if_pos (by simp [h0])], ?_⟩
    subst h0
    generalize hj : (-1074 : Int) = e
    unfold dblFrac
    rw [if_neg (by omega)]
    unfold rne
    simp
  · have hnum : n * 2 ^ j ≠ 0 := Nat.mul_ne_zero h0 (by omega)
    have hl : Nat.log2 n < 51 := (Nat.log2_lt h0).2 hn
    have hlD : Nat.log2 D < 10 := (Nat.log2_lt (by omega)).2 hD'
    have hfl := floorLog2_le (n * 2 ^ j) (2 ^ j * D)
    rw [log2_mul_pow h0, Nat.mul_comm (2 ^ j) D, log2_mul_pow (by omega)] at hfl
    generalize hE : max (floorLog2 (n * 2 ^ j) (D * 2 ^ j) - 52) (-1074) = e
    have he : e ≤ (Nat.log2 n : Int) - Nat.log2 D - 52 ∨ e = -1074 := by omega
    have hneg : e < 0 := by omega
    obtain ⟨t, ht⟩ : ∃ t : Nat, (-e).toNat = t := ⟨_, rfl⟩
    have ht1 : Nat.log2 D + 1 + 1 ≤ t := by omega
    have hDt : 2 * D < 2 ^ t := by
      have h1 : D < 2 ^ (Nat.log2 D + 1) := Nat.lt_log2_self
      have h2 : 2 ^ (Nat.log2 D + 1 + 1) ≤ 2 ^ t := Nat.pow_le_pow_right (by omega) ht1
      rw [Nat.pow_succ 2 (Nat.log2 D + 1)] at h2
      omega
    have herr := rne_error (a := n * 2 ^ j * 2 ^ t) (b := D * 2 ^ j) (Nat.mul_pos hD hp)
    generalize hm : rne (n * 2 ^ j * 2 ^ t) (D * 2 ^ j) = m at herr
    -- divide the error bound by 2^j
    have e1 : m * (D * 2 ^ j) = (m * D) * 2 ^ j := by rw [Nat.mul_assoc]
    have e2 : n * 2 ^ j * 2 ^ t = (n * 2 ^ t) * 2 ^ j := by
      rw [Nat.mul_assoc, Nat.mul_comm (2 ^ j), ← Nat.mul_assoc]
    rw [e1, e2] at herr
    have b1 : 2 * (m * D) ≤ 2 * (n * 2 ^ t) + D := by
      apply Nat.le_of_mul_le_mul_right _ hp
      rw [Nat.add_mul, Nat.mul_assoc, Nat.mul_assoc 2 (n * 2 ^ t)]; exact herr.1
    have b2 : 2 * (n * 2 ^ t) ≤ 2 * (m * D) + D := by
      apply Nat.le_of_mul_le_mul_right _ hp
      rw [Nat.add_mul, Nat.mul_assoc, Nat.mul_assoc 2 (m * D)]; exact herr.2
    by_cases h53 : m = 2 ^ 53
    · refine ⟨2 ^ 52, e + 1, ?_, ?_⟩
      · unfold roundDbl
        rw [Nat.mul_comm (2 ^ j) D]
        simp only [hE]
        rw [if_neg hnum, scale_neg hneg, ht]
        simp only [hm]
        rw [if_pos h53, if_neg (by omega)]
      · obtain ⟨u, hu⟩ : ∃ u : Nat, t = u + 1 := ⟨t - 1, by omega⟩
        have hfr : dblFrac (2 ^ 52) (e + 1) = (2 ^ 52, 2 ^ u) := by
          unfold dblFrac
          rw [if_neg (by omega), show (-(e + 1)).toNat = u by omega]
        rw [hfr]
        have hm2 : m * D = 2 * (2 ^ 52 * D) := by rw [h53]; omega
        have ht2 : n * 2 ^ t = 2 * (n * 2 ^ u) := by rw [hu, Nat.pow_succ, ← Nat.mul_assoc]; omega
        have hu2 : 2 ^ t = 2 * 2 ^ u := by rw [hu, Nat.pow_succ]; omega
        apply rne_eq <;> simp only <;> generalize 2 ^ 52 * D = q at * <;>
          generalize n * 2 ^ u = r at * <;> generalize (2 : Nat) ^ u = w at * <;> omega
    · refine ⟨m, e, ?_, ?_⟩
      · unfold roundDbl
        rw [Nat.mul_comm (2 ^ j) D]
        simp only [hE]
        rw [if_neg hnum, scale_neg hneg, ht]
        simp only [hm]
        rw [if_neg h53, if_neg (by omega)]
      · have hfr : dblFrac m e = (m, 2 ^ t) := by
          unfold dblFrac
          rw [if_neg (by omega), ht]
        rw [hfr]
        apply rne_eq <;> simp only <;> generalize m * D = q at * <;>
          generalize n * 2 ^ t = r at * <;> generalize (2 : Nat) ^ t = w at * <;> omega

theorem fixed_of {d n : Nat} (hd : 0 < d) :
    Fixed d (natStr (n / 10 ^ d) ++ [46] ++ zfill d (natStr (n % 10 ^ d))) n := by
  refine ⟨_, _, rfl, natStr_decimal _, numeral_zfill (natStr_decimal _).1 _, ?_⟩
  rw [zfill_length]
  have := decimal_length_lt (natStr_decimal (n % 10 ^ d)) hd (Nat.mod_lt _ (Nat.pow_pos (by omega)))
  omega

/-- dividing an integer double by `10^d` and printing `d` decimals is exact -/
theorem fmt_div {n d : Nat} (hn : n < 2 ^ 50) (hd : 0 < d) (hd' : 10 ^ d < 2 ^ 10) :
    Fixed d (((roundDbl false n 1).divNat (10 ^ d)).fmt d) n := by
  obtain ⟨m, e, j, h1, h2⟩ := roundDbl_nat (n := n) (by omega)
  obtain ⟨m', e', h3, h4⟩ := roundDbl_div (n := n) (D := 10 ^ d) (j := j) (by omega) (Nat.pow_pos (by omega)) hd'
  rw [h1]
  simp only [Dbl.divNat, h2, h3, Dbl.fmt, h4]
  exact fixed_of hd

/-- numbers written with `d` decimals are unique -/
theorem fixed_unique {d n : Nat} {s t : Str} (hs : Fixed d s n) (ht : Fixed d t n) : s = t := by
  obtain ⟨a, f, rfl, h1, h2, h3⟩ := hs
  obtain ⟨b, g, rfl, k1, k2, k3⟩ := ht
  rw [decimal_unique h1 k1, numeral_unique_length h2.2.1 k2.2.1 (by omega) (by rw [h2.2.2, k2.2.2])]

theorem numeral_lt {v : Str} {n k : Nat} (h : Numeral v n) (hk : v.length ≤ k) : n < 10 ^ k := by
  rw [← h.2.2]
  exact Nat.lt_of_lt_of_le (digitSum_lt h.2.1) (Nat.pow_le_pow_right (by omega) hk)

theorem numeral_lt15 {v : Str} {n : Nat} (h : Numeral v n) (hk : v.length ≤ 15) : n < 2 ^ 50 :=
  Nat.lt_of_lt_of_le (numeral_lt h hk) (by decide)

/-! ### scaling a fraction -/

theorem rne_mul {a b k : Nat} (hk : 0 < k) : rne (a * k) (b * k) = rne a b := by
  unfold rne
  rw [Nat.mul_div_mul_right _ _ hk, Nat.mul_mod_mul_right]
  have e : 2 * (a % b * k) = 2 * (a % b) * k := by rw [Nat.mul_assoc]
  rw [e]
  have h1 : 2 * (a % b) * k < b * k ↔ 2 * (a % b) < b := Nat.mul_lt_mul_right hk
  have h2 : b * k < 2 * (a % b) * k ↔ b < 2 * (a % b) := Nat.mul_lt_mul_right hk
  simp only [h1, h2]

theorem scale_mul (num den k : Nat) (e : Int) :
    scale (num * k) (den * k) e = ((scale num den e).1 * k, (scale num den e).2 * k) := by
  unfold scale
  split
  · simp only [Nat.mul_assoc, Nat.mul_comm k]
  · simp only [Nat.mul_assoc, Nat.mul_comm k]

theorem roundDbl_mul {neg : Bool} {num den : Nat} (hd : den ≠ 0) (j : Nat) :
    roundDbl neg (num * 2 ^ j) (den * 2 ^ j) = roundDbl neg num den := by
  have hp : (0 : Nat) < 2 ^ j := Nat.pow_pos (by omega)
  by_cases h0 : num = 0
  · unfold roundDbl; rw [if_pos (by simp [h0]), if_pos h0]
  · have hfl : floorLog2 (num * 2 ^ j) (den * 2 ^ j) = floorLog2 num den := by
      unfold floorLog2
      rw [log2_mul_pow h0, log2_mul_pow hd]
      have : ((Nat.log2 num + j : Nat) : Int) - ((Nat.log2 den + j : Nat) : Int) =
          (Nat.log2 num : Int) - Nat.log2 den := by omega
      simp only [this, scale_mul]
      have hle : ∀ a b : Nat, a * 2 ^ j ≤ b * 2 ^ j ↔ a ≤ b := fun a b => Nat.mul_le_mul_right_iff hp
      simp only [hle]
    unfold roundDbl
    rw [if_neg h0, if_neg (Nat.mul_ne_zero h0 (by omega)), hfl]
    simp only [scale_mul, rne_mul hp]

/-- `float(n) / 10` is the double nearest to `n/10` -/
theorem divNat_ten {n : Nat} (hn : n < 2 ^ 50) : (roundDbl false n 1).divNat 10 = roundDbl false n 10 := by
  obtain ⟨m, e, j, h1, h2⟩ := roundDbl_nat (n := n) (by omega)
  rw [h1]
  simp only [Dbl.divNat, h2]
  rw [Nat.mul_comm (2 ^ j) 10, roundDbl_mul (by omega)]

section
variable [PyUnicode]

omit [PyUnicode] in
theorem dropUnderscores_clean {s : Str} (h : ∀ c ∈ s, c ≠ 95) :
    ∀ p, p ≠ 95 → dropUnderscores p s = some s := by
  induction s with
  | nil => intro p hp; simp [dropUnderscores, hp]
  | cons c s ih =>
    intro p hp
    have h1 : (c == 95) = false := by simpa using h c (by simp)
    have h2 : (p == 95) = false := by simpa using hp
    simp only [dropUnderscores, h1, h2, Bool.false_and, Bool.false_eq_true, if_false]
    rw [ih (fun d hd => h d (by simp [hd])) c (h c (by simp))]
    rfl

theorem pyFloat_point {a : Str} {b : Nat} (ha : Digits a) (hb : isDigit b = true) :
    pyFloat (a ++ [46] ++ [b]) = .ok (roundDbl false (digitsVal (a ++ [b])) 10) := by
  have hall : ∀ c ∈ a ++ [46] ++ [b], 46 ≤ c ∧ c ≤ 57 := by
    intro c hc
    simp only [List.mem_append, List.mem_singleton] at hc
    rcases hc with (hc | rfl) | rfl
    · have := isDigit_iff.1 (ha.2 c hc); omega
    · omega
    · have := isDigit_iff.1 hb; omega
  have h1 : (a ++ [46] ++ [b]).map toAscii = a ++ [46] ++ [b] := by
    have : (a ++ [46] ++ [b]).map toAscii = (a ++ [46] ++ [b]).map id := by
      apply List.map_congr_left
      intro c hc
      have := hall c hc
      exact toAscii_lt (by omega)
    simpa using this
  have hsp : ∀ c, 46 ≤ c ∧ c ≤ 57 → cSpace c = false := by
    intro c hc
    simp only [cSpace, Bool.or_eq_false_iff, Bool.and_eq_false_imp, decide_eq_true_eq,
      decide_eq_false_iff_not, beq_eq_false_iff_ne]
    omega
  have h2 : cStrip (a ++ [46] ++ [b]) = a ++ [46] ++ [b] := by
    unfold cStrip
    rw [dropWhile_none (fun c hc => hsp c (hall c hc)),
      dropWhile_none (fun c hc => hsp c (hall c (List.mem_reverse.1 hc))), List.reverse_reverse]
  have h3 : dropUnderscores 0 (a ++ [46] ++ [b]) = some (a ++ [46] ++ [b]) :=
    dropUnderscores_clean (fun c hc => by have := hall c hc; omega) 0 (by omega)
  have h4 : takeSign (a ++ [46] ++ [b]) = (false, a ++ [46] ++ [b]) := by
    obtain ⟨c, s, rfl⟩ := List.exists_cons_of_ne_nil ha.1
    have hc := isDigit_iff.1 (ha.2 c (by simp))
    unfold takeSign
    split
    · next h => injection h with h _; omega
    · next h => injection h with h _; omega
    · rfl
  have hlow : (a ++ [46] ++ [b]).map asciiLower = a ++ [46] ++ [b] := by
    have : (a ++ [46] ++ [b]).map asciiLower = (a ++ [46] ++ [b]).map id := by
      apply List.map_congr_left
      intro c hc
      have := hall c hc
      simp only [asciiLower, id]
      rw [if_neg]; simp; omega
    simpa using this
  have h5 : parseDecimal (a ++ [46] ++ [b]) = some (digitsVal (a ++ [b]), -1) := by
    have htw : ∀ t : Str, (a ++ 46 :: t).takeWhile isDigit = a ∧ (a ++ 46 :: t).dropWhile isDigit = 46 :: t := by
      intro t
      have h46 : isDigit 46 = false := by decide
      have hpos : ∀ l : Str, (∀ c ∈ l, isDigit c = true) →
          (l ++ 46 :: t).takeWhile isDigit = l ∧ (l ++ 46 :: t).dropWhile isDigit = 46 :: t := by
        intro l
        induction l with
        | nil => intro _; simp [h46]
        | cons c l ih =>
          intro h
          obtain ⟨e1, e2⟩ := ih (fun d hd => h d (by simp [hd]))
          simp [h c (by simp), e1, e2]
      exact hpos a ha.2
    unfold parseDecimal
    rw [List.append_assoc, show [46] ++ [b] = 46 :: [b] from rfl]
    simp only [htw]
    have hne : a.isEmpty = false := by simpa using ha.1
    simp [hne, hb, parseExp]
  have hne1 : ∀ t : Str, 102 ∈ t → ¬ (a ++ [46] ++ [b]) = t := by
    intro t ht e
    have := hall 102 (by rw [e]; exact ht); omega
  have hne2 : ∀ t : Str, 110 ∈ t → ¬ (a ++ [46] ++ [b]) = t := by
    intro t ht e
    have := hall 110 (by rw [e]; exact ht); omega
  unfold pyFloat
  simp only [h1, h2, h3, h4, hlow, h5]
  rw [if_neg (by simp only [Bool.or_eq_true, decide_eq_true_eq, not_or]; exact ⟨hne1 _ (by decide), hne1 _ (by decide)⟩),
    if_neg (hne2 _ (by decide))]
  rfl

/-- `int` of one ASCII character that is not a digit -/
theorem pyInt_bad {c : Nat} (hc : c < 128) (hd : ¬ (48 ≤ c ∧ c ≤ 57)) : pyInt [c] = .error .valueError := by
  have htab : ∀ x : Fin 128, ¬ (48 ≤ x.val ∧ x.val ≤ 57) →
      (match dropUnderscores 0 (takeSign (cStrip [x.val])).2 with
        | none => true
        | some ds => !(!ds.isEmpty && ds.all isDigit && decide (ds.length ≤ maxStrDigits))) = true := by
    decide +kernel
  have hx : ∃ x : Fin 128, toAscii c = x.val ∧ ¬ (48 ≤ x.val ∧ x.val ≤ 57) := by
    by_cases h : c < 127
    · exact ⟨⟨c, hc⟩, toAscii_lt h, hd⟩
    · have : c = 127 := by omega
      subst this
      refine ⟨⟨63, by omega⟩, ?_, by decide⟩
      unfold toAscii
      rw [if_neg (by omega), if_neg (by decide), PyUnicode.decimal_ascii 127 (by omega), if_neg (by omega)]
  obtain ⟨x, hx1, hx2⟩ := hx
  have := htab x hx2
  unfold pyInt
  simp only [List.map_cons, List.map_nil, hx1]
  cases hdu : dropUnderscores 0 (takeSign (cStrip [x.val])).2 with
  | none => rfl
  | some ds =>
    rw [hdu] at this
    simp only [Bool.not_eq_true'] at this
    simp only [this]
    rfl

theorem zone_numeric {c : Nat} {w : Str} (hc : 65 ≤ c ∧ c ≤ 90) (hw : ∃ n, Numeral w n) :
    (isAlpha [c] && isNumeric (sliceFrom (c :: w) 1)) = true := by
  obtain ⟨n, hw⟩ := hw
  have h1 : isAlpha [c] = true := by
    simp only [isAlpha, Bool.and_eq_true, List.all_eq_true, List.mem_singleton]
    refine ⟨rfl, fun d hd => ?_⟩
    subst hd
    rw [PyUnicode.alpha_ascii d (by omega)]; simp; omega
  have h2 : sliceFrom (c :: w) 1 = w := rfl
  rw [h1, h2, isNumeric_digits (numeral_digits hw)]; rfl

/-! ### widths of fields in records -/

omit [PyUnicode] in
theorem freq_widths : registry.all (fun p => p.2.layouts.all fun l => l.all fun s =>
    !frequencyFields.contains s.dec || decide (s.slice.columns.length ≤ 15)) = true := by
  decide +kernel

theorem accepted_width {r : Record} {line k : Str} {d : Definition} {l : Layout}
    (ha : Accepted r line k d l) {f : Field} (hf : f ∈ (r.read line).obj.fields) :
    ∃ s ∈ l, f = FieldSpec.field line s ∧ f.dec = s.dec ∧ f.value.length = s.slice.columns.length := by
  rw [accepted_fields ha] at hf
  obtain ⟨s, hs, rfl⟩ := List.mem_map.1 hf
  refine ⟨s, hs, rfl, rfl, ?_⟩
  have := length_line ha.isRec
  exact pick_length (fun c hc => Nat.lt_of_lt_of_le ((layout_columns ha.lookup ha.mem hs).2.1 c hc) this)

end
end Arinc
