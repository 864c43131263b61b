import Verif.Lemmas.Value
import Verif.Py.Repr
/-!
# Lemmas: tenths shown by `str`
-/
namespace Arinc
open Py Spec

/-! ## fractions and their scaling -/

/-- `num/den` lies between `2^(p-q)` and twice that -/
def InBin (num den p q : Nat) : Prop := den * 2 ^ p ≤ num * 2 ^ q ∧ num * 2 ^ q < 2 * (den * 2 ^ p)

theorem inBin_unique {num den p q p' q' : Nat} (h : InBin num den p q) (h' : InBin num den p' q') :
    (p : Int) - q = (p' : Int) - q' := by
  have key : ∀ {p q p' q' : Nat}, InBin num den p q → InBin num den p' q' → ¬ p + q' + 1 ≤ p' + q := by
    intro p q p' q' h h' hlt
    have h1 : den * 2 ^ p' * 2 ^ q ≤ num * 2 ^ q' * 2 ^ q := Nat.mul_le_mul_right _ h'.1
    have h2 : num * 2 ^ q * 2 ^ q' < 2 * (den * 2 ^ p) * 2 ^ q' :=
      Nat.mul_lt_mul_of_pos_right h.2 (Nat.pow_pos (by omega))
    have e1 : num * 2 ^ q' * 2 ^ q = num * 2 ^ q * 2 ^ q' := by
      rw [Nat.mul_assoc, Nat.mul_assoc, Nat.mul_comm (2 ^ q')]
    have e2 : 2 * (den * 2 ^ p) * 2 ^ q' = den * 2 ^ (p + q' + 1) := by
      rw [Nat.pow_succ, Nat.pow_add]
      simp only [Nat.mul_assoc, Nat.mul_comm 2]
    have e3 : den * 2 ^ p' * 2 ^ q = den * 2 ^ (p' + q) := by rw [Nat.pow_add, Nat.mul_assoc]
    rw [e1, e3] at h1
    rw [e2] at h2
    have h3 : den * 2 ^ (p' + q) < den * 2 ^ (p + q' + 1) := Nat.lt_of_le_of_lt h1 h2
    have h4 : den * 2 ^ (p + q' + 1) ≤ den * 2 ^ (p' + q) :=
      Nat.mul_le_mul_left _ (Nat.pow_le_pow_right (by omega) hlt)
    omega
  have h1 := key h h'
  have h2 := key h' h
  omega

theorem scale_inBin {num den p q : Nat} :
    InBin num den p q ↔ (scale num den ((p : Int) - q)).2 ≤ (scale num den ((p : Int) - q)).1 ∧
      (scale num den ((p : Int) - q)).1 < 2 * (scale num den ((p : Int) - q)).2 := by
  unfold InBin
  by_cases h : q ≤ p
  · rw [scale_nonneg (by omega), show ((p : Int) - q).toNat = p - q by omega]
    have e : den * 2 ^ p = den * 2 ^ (p - q) * 2 ^ q := by
      rw [Nat.mul_assoc, ← Nat.pow_add, show p - q + q = p by omega]
    have hq : (0 : Nat) < 2 ^ q := Nat.pow_pos (by omega)
    have e' : 2 * (den * 2 ^ (p - q) * 2 ^ q) = 2 * (den * 2 ^ (p - q)) * 2 ^ q := by simp only [Nat.mul_assoc]
    rw [e, e', Nat.mul_le_mul_right_iff hq, Nat.mul_lt_mul_right hq]
  · rw [scale_neg (by omega), show (-((p : Int) - q)).toNat = q - p by omega]
    have e : num * 2 ^ q = num * 2 ^ (q - p) * 2 ^ p := by
      rw [Nat.mul_assoc, ← Nat.pow_add, show q - p + p = q by omega]
    have hp : (0 : Nat) < 2 ^ p := Nat.pow_pos (by omega)
    have e' : 2 * (den * 2 ^ p) = 2 * den * 2 ^ p := by simp only [Nat.mul_assoc]
    rw [e, e', Nat.mul_le_mul_right_iff hp, Nat.mul_lt_mul_right hp]

theorem floorLog2_inBin {num den : Nat} (hn : num ≠ 0) (hd : den ≠ 0) :
    ∃ p q : Nat, floorLog2 num den = (p : Int) - q ∧ InBin num den p q := by
  have n1 := Nat.log2_self_le hn
  have n2 : num < 2 ^ (Nat.log2 num + 1) := Nat.lt_log2_self
  have d1 := Nat.log2_self_le hd
  have d2 : den < 2 ^ (Nat.log2 den + 1) := Nat.lt_log2_self
  have hin : ∀ p q : Nat, p = Nat.log2 num → q = Nat.log2 den →
      num * 2 ^ q < 2 * (den * 2 ^ p) ∧ den * 2 ^ p < 2 * (num * 2 ^ q) := by
    rintro p q rfl rfl
    have hp : (0 : Nat) < 2 ^ Nat.log2 num := Nat.pow_pos (by omega)
    have hq : (0 : Nat) < 2 ^ Nat.log2 den := Nat.pow_pos (by omega)
    rw [Nat.pow_succ] at n2 d2
    constructor
    · have h1 : num * 2 ^ Nat.log2 den < 2 ^ Nat.log2 num * 2 * 2 ^ Nat.log2 den := Nat.mul_lt_mul_of_pos_right n2 hq
      have h2 : 2 ^ Nat.log2 num * 2 ^ Nat.log2 den ≤ 2 ^ Nat.log2 num * den := Nat.mul_le_mul_left _ d1
      rw [Nat.mul_right_comm] at h1
      rw [Nat.mul_comm den]
      omega
    · have h1 : den * 2 ^ Nat.log2 num < 2 ^ Nat.log2 den * 2 * 2 ^ Nat.log2 num := Nat.mul_lt_mul_of_pos_right d2 hp
      have h2 : 2 ^ Nat.log2 den * 2 ^ Nat.log2 num ≤ 2 ^ Nat.log2 den * num := Nat.mul_le_mul_left _ n1
      rw [Nat.mul_right_comm] at h1
      rw [Nat.mul_comm num]
      omega
  obtain ⟨b1, b2⟩ := hin _ _ rfl rfl
  have hs := scale_inBin (num := num) (den := den) (p := Nat.log2 num) (q := Nat.log2 den)
  by_cases h : den * 2 ^ Nat.log2 num ≤ num * 2 ^ Nat.log2 den
  · have hb : InBin num den (Nat.log2 num) (Nat.log2 den) := ⟨h, b1⟩
    refine ⟨_, _, ?_, hb⟩
    unfold floorLog2
    simp only
    rw [if_pos (hs.1 hb).1]
  · refine ⟨Nat.log2 num, Nat.log2 den + 1, ?_, ?_⟩
    · unfold floorLog2
      simp only
      rw [if_neg]
      · omega
      · intro hle
        apply h
        by_cases hq : Nat.log2 den ≤ Nat.log2 num
        · rw [scale_nonneg (by omega), show ((Nat.log2 num : Int) - Nat.log2 den).toNat = Nat.log2 num - Nat.log2 den by omega] at hle
          have := Nat.mul_le_mul_right (2 ^ Nat.log2 den) hle
          rwa [Nat.mul_assoc, ← Nat.pow_add, Nat.sub_add_cancel hq] at this
        · rw [scale_neg (by omega), show (-((Nat.log2 num : Int) - Nat.log2 den)).toNat = Nat.log2 den - Nat.log2 num by omega] at hle
          have := Nat.mul_le_mul_right (2 ^ Nat.log2 num) hle
          rwa [Nat.mul_assoc num, ← Nat.pow_add, Nat.sub_add_cancel (by omega)] at this
    · unfold InBin
      rw [Nat.pow_succ, ← Nat.mul_assoc]
      omega

theorem inBin_mul {num den p q c : Nat} (hc : 0 < c) : InBin (num * c) (den * c) p q ↔ InBin num den p q := by
  unfold InBin
  have e1 : den * c * 2 ^ p = den * 2 ^ p * c := Nat.mul_right_comm _ _ _
  have e2 : num * c * 2 ^ q = num * 2 ^ q * c := Nat.mul_right_comm _ _ _
  have e3 : 2 * (den * 2 ^ p * c) = 2 * (den * 2 ^ p) * c := (Nat.mul_assoc _ _ _).symm
  rw [e1, e2, e3, Nat.mul_le_mul_right_iff hc, Nat.mul_lt_mul_right hc]

/-- the double nearest to a fraction does not depend on how the fraction is written -/
theorem roundDbl_scale {neg : Bool} {num den c : Nat} (hd : den ≠ 0) (hc : 0 < c) :
    roundDbl neg (num * c) (den * c) = roundDbl neg num den := by
  by_cases h0 : num = 0
  · unfold roundDbl; rw [if_pos (by simp [h0]), if_pos h0]
  · have hn' : num * c ≠ 0 := Nat.mul_ne_zero h0 (by omega)
    have hd' : den * c ≠ 0 := Nat.mul_ne_zero hd (by omega)
    have hfl : floorLog2 (num * c) (den * c) = floorLog2 num den := by
      obtain ⟨p, q, e, h⟩ := floorLog2_inBin h0 hd
      obtain ⟨p', q', e', h'⟩ := floorLog2_inBin hn' hd'
      rw [e, e', inBin_unique h ((inBin_mul hc).1 h')]
    unfold roundDbl
    rw [if_neg h0, if_neg hn', hfl]
    simp only [scale_mul, rne_mul hc]

/-! ## tenths -/

theorem tenths_frac {n : Nat} (hn : n < 2 ^ 51) :
    ∃ m e, roundDbl false n 10 = .fin false m e ∧ rne ((dblFrac m e).1 * 10) (dblFrac m e).2 = n := by
  have := roundDbl_div (n := n) (D := 10) (j := 0) hn (by omega) (by decide)
  simpa using this

/-- different tenths are different doubles -/
theorem tenths_inj {n k : Nat} (hn : n < 2 ^ 51) (hk : k < 2 ^ 51) (h : roundDbl false n 10 = roundDbl false k 10) :
    n = k := by
  obtain ⟨m, e, h1, h2⟩ := tenths_frac hn
  obtain ⟨m', e', h1', h2'⟩ := tenths_frac hk
  rw [h1, h1'] at h
  cases h
  exact h2.symm.trans h2'

theorem decDbl_tenths (d t : Nat) : decDbl false d ((t : Int) - 1) = roundDbl false (d * 10 ^ t) 10 := by
  unfold decDbl
  cases t with
  | zero =>
    rw [if_neg (by omega)]
    simp
  | succ t =>
    rw [if_pos (by omega), show ((t + 1 : Nat) : Int) - 1 = t by omega, Int.toNat_natCast, Nat.pow_succ,
      ← Nat.mul_assoc]
    exact (roundDbl_scale (den := 1) (by omega) (by omega)).symm

theorem dblFrac_pos (m : Nat) (e : Int) : 0 < (dblFrac m e).2 := by
  unfold dblFrac
  split
  · exact Nat.one_pos
  · exact Nat.pow_pos (by omega)

/-- the search finds the tenths exactly where they are a multiple of the power of ten -/
theorem backAt_tenths {n m t : Nat} {e : Int} (hx : roundDbl false n 10 = .fin false m e)
    (hn : n + 10 ^ t < 2 ^ 51) :
    backAt (.fin false m e) (dblFrac m e).1 (dblFrac m e).2 ((t : Int) - 1) =
      if 10 ^ t ∣ n then some (n / 10 ^ t) else none := by
  have hp : 0 < 10 ^ t := Nat.pow_pos (by omega)
  have hden := dblFrac_pos m e
  obtain ⟨m', e', h1, h2⟩ := tenths_frac (n := n) (by omega)
  rw [hx] at h1
  cases h1
  generalize hfr : dblFrac m e = fr at *
  obtain ⟨num, den⟩ := fr
  simp only at *
  have herr := rne_error (a := num * 10) hden
  rw [h2] at herr
  obtain ⟨r1, r2⟩ := herr
  unfold backAt
  simp only
  -- the quotient
  have hquot : ∀ s : Nat × Nat, s = (if 0 ≤ (t : Int) - 1 then (num, den * 10 ^ ((t : Int) - 1).toNat)
      else (num * 10 ^ (-((t : Int) - 1)).toNat, den)) → s.1 / s.2 = num * 10 / (den * 10 ^ t) ∧
      rne s.1 s.2 = rne (num * 10) (den * 10 ^ t) := by
    rintro s rfl
    cases t with
    | zero => rw [if_neg (by omega)]; simp
    | succ t =>
      rw [if_pos (by omega), show ((t + 1 : Nat) : Int) - 1 = t by omega, Int.toNat_natCast, Nat.pow_succ,
        ← Nat.mul_assoc]
      exact ⟨(Nat.mul_div_mul_right _ _ (by omega)).symm, (rne_mul (by omega)).symm⟩
  obtain ⟨hq1, hq2⟩ := hquot _ rfl
  rw [hq1, hq2, decDbl_tenths, decDbl_tenths, ← hx]
  generalize hlo : num * 10 / (den * 10 ^ t) = lo
  -- bounds on lo
  have hD : 0 < den * 10 ^ t := Nat.mul_pos hden hp
  have l1 : lo * (den * 10 ^ t) ≤ num * 10 := by rw [← hlo]; exact Nat.div_mul_le_self _ _
  have l2 : num * 10 < (lo + 1) * (den * 10 ^ t) := by
    rw [← hlo]; exact Nat.lt_mul_of_div_lt (Nat.lt_succ_self _) hD
  have a1 : lo * (den * 10 ^ t) = (lo * 10 ^ t) * den := by rw [Nat.mul_comm den, Nat.mul_assoc]
  have a2 : (lo + 1) * (den * 10 ^ t) = ((lo + 1) * 10 ^ t) * den := by rw [Nat.mul_comm den, Nat.mul_assoc]
  rw [a1] at l1
  rw [a2] at l2
  have c1 : lo * 10 ^ t ≤ n := by
    rcases Nat.lt_or_ge n (lo * 10 ^ t) with h | h
    · have : (n + 1) * den ≤ lo * 10 ^ t * den := Nat.mul_le_mul_right _ h
      rw [Nat.add_mul, Nat.one_mul] at this
      omega
    · exact h
  have c2 : n ≤ (lo + 1) * 10 ^ t := by
    rcases Nat.lt_or_ge ((lo + 1) * 10 ^ t) n with h | h
    · have : ((lo + 1) * 10 ^ t + 1) * den ≤ n * den := Nat.mul_le_mul_right _ h
      rw [Nat.add_mul, Nat.one_mul] at this
      omega
    · exact h
  have c3 : (lo + 1) * 10 ^ t = lo * 10 ^ t + 10 ^ t := by rw [Nat.add_mul, Nat.one_mul]
  have i1 : roundDbl false (lo * 10 ^ t) 10 = roundDbl false n 10 ↔ lo * 10 ^ t = n :=
    ⟨fun h => tenths_inj (by omega) (by omega) h, fun h => by rw [h]⟩
  have i2 : roundDbl false ((lo + 1) * 10 ^ t) 10 = roundDbl false n 10 ↔ (lo + 1) * 10 ^ t = n :=
    ⟨fun h => tenths_inj (by omega) (by omega) h, fun h => by rw [h]⟩
  by_cases k1 : lo * 10 ^ t = n
  · have k2 : ¬ (lo + 1) * 10 ^ t = n := by omega
    rw [if_pos (i1.2 k1), if_neg (fun h => k2 (i2.1 h)), if_pos ⟨lo, by rw [← k1, Nat.mul_comm]⟩, ← k1,
      Nat.mul_div_cancel _ hp]
  · rw [if_neg (fun h => k1 (i1.1 h))]
    by_cases k2 : (lo + 1) * 10 ^ t = n
    · rw [if_pos (i2.2 k2), if_pos ⟨lo + 1, by rw [← k2, Nat.mul_comm]⟩, ← k2, Nat.mul_div_cancel _ hp]
    · rw [if_neg (fun h => k2 (i2.1 h)), if_neg]
      rintro ⟨q, rfl⟩
      have hq : q = lo ∨ q = lo + 1 := by
        have q1 : lo ≤ q := by
          apply Nat.le_of_mul_le_mul_right (c := 10 ^ t) _ hp
          rw [Nat.mul_comm q]; exact c1
        have q2 : q ≤ lo + 1 := by
          apply Nat.le_of_mul_le_mul_right (c := 10 ^ t) _ hp
          rw [Nat.mul_comm q]; exact c2
        omega
      rcases hq with rfl | rfl
      · exact k1 (Nat.mul_comm _ _)
      · exact k2 (Nat.mul_comm _ _)

theorem shortest_tenths {n m : Nat} {e : Int} (hx : roundDbl false n 10 = .fin false m e) (t fuel : Nat)
    (hn : n + 10 ^ t < 2 ^ 51) (hf : t < fuel) :
    ∃ d j : Nat, shortest (.fin false m e) (dblFrac m e).1 (dblFrac m e).2 fuel ((t : Int) - 1) =
      some (d, (j : Int) - 1) ∧ d * 10 ^ j = n := by
  induction t generalizing fuel with
  | zero =>
    obtain ⟨f, rfl⟩ : ∃ f, fuel = f + 1 := ⟨fuel - 1, by omega⟩
    unfold shortest
    rw [backAt_tenths hx hn, if_pos (by simp)]
    exact ⟨_, 0, rfl, by simp⟩
  | succ t ih =>
    obtain ⟨f, rfl⟩ : ∃ f, fuel = f + 1 := ⟨fuel - 1, by omega⟩
    unfold shortest
    rw [backAt_tenths hx hn]
    by_cases h : 10 ^ (t + 1) ∣ n
    · rw [if_pos h]
      exact ⟨_, t + 1, rfl, Nat.div_mul_cancel h⟩
    · rw [if_neg h]
      have := ih f (by rw [Nat.pow_succ] at hn; omega) (by omega)
      simp only
      rwa [show ((t + 1 : Nat) : Int) - 1 - 1 = (t : Int) - 1 by omega]

/-! ## their text -/

theorem decimal_zeros {s : Str} {n : Nat} (h : Decimal s n) (hn : n ≠ 0) (k : Nat) :
    Decimal (s ++ List.replicate k 48) (n * 10 ^ k) := by
  obtain ⟨⟨h1, h2, h3⟩, h4⟩ := h
  refine ⟨⟨by simp [h1], ?_, ?_⟩, ?_⟩
  · intro c hc
    rcases List.mem_append.1 hc with hc | hc
    · exact h2 c hc
    · rw [(List.mem_replicate.1 hc).2]; omega
  · have := digitSum_replicate k []
    rw [List.append_nil] at this
    rw [digitSum_append, List.length_replicate, this, h3]
    rfl
  · intro hh
    obtain ⟨c, s, rfl⟩ := List.exists_cons_of_ne_nil h1
    have : c = 48 := Option.some.inj hh
    subst this
    have := h4 rfl
    rw [this] at h3
    exact absurd h3.symm hn

theorem fixed_cut {s : Str} {n : Nat} (h : Decimal s n) (hl : 1 < s.length) :
    Fixed 1 (s.take (s.length - 1) ++ [46] ++ s.drop (s.length - 1)) n := by
  obtain ⟨⟨h1, h2, h3⟩, h4⟩ := h
  have hlen : (s.drop (s.length - 1)).length = 1 := by rw [List.length_drop]; omega
  have hcut := List.take_append_drop (s.length - 1) s
  have hsum : digitSum s = digitSum (s.take (s.length - 1)) * 10 + digitSum (s.drop (s.length - 1)) := by
    conv => lhs; rw [← hcut]
    rw [digitSum_append, hlen]
  have hd : ∀ c ∈ s.drop (s.length - 1), 48 ≤ c ∧ c ≤ 57 := fun c hc => h2 c (List.mem_of_mem_drop hc)
  have hlt := digitSum_lt hd
  rw [hlen] at hlt
  refine ⟨_, _, rfl, ⟨⟨?_, ?_, ?_⟩, ?_⟩, ⟨?_, hd, ?_⟩, hlen⟩
  · intro h0
    have := congrArg List.length h0
    rw [List.length_take] at this
    simp at this
    omega
  · exact fun c hc => h2 c (List.mem_of_mem_take hc)
  · rw [h3] at hsum; omega
  · intro hh
    obtain ⟨c, s', rfl⟩ := List.exists_cons_of_ne_nil h1
    have hc : c = 48 := by
      obtain ⟨l, hl'⟩ : ∃ l, (c :: s').length - 1 = l + 1 := ⟨(c :: s').length - 2, by omega⟩
      rw [hl', List.take_succ_cons] at hh
      exact Option.some.inj hh
    subst hc
    have := h4 rfl
    rw [this] at hl
    simp at hl
  · intro h0; rw [h0] at hlen; cases hlen
  · rw [h3] at hsum; omega

theorem layoutRepr_tenths {d j : Nat} (hd : d * 10 ^ j ≠ 0) (hn : d * 10 ^ j < 10 ^ 15) :
    Fixed 1 (layoutRepr d ((j : Int) - 1)) (d * 10 ^ j) := by
  have hd0 : d ≠ 0 := fun h => hd (by rw [h, Nat.zero_mul])
  have hdec := natStr_decimal d
  have hz := decimal_zeros hdec hd0 j
  have hlen : (natStr d).length + j ≤ 15 := by
    have := decimal_length_lt hz (by omega) hn
    rwa [List.length_append, List.length_replicate] at this
  have hpos : 0 < (natStr d).length := List.length_pos_iff.2 hdec.1.1
  unfold layoutRepr
  simp only
  rw [if_pos (by omega)]
  cases j with
  | zero =>
    rw [Nat.pow_zero, Nat.mul_one] at *
    by_cases h1 : (natStr d).length = 1
    · rw [if_pos (by omega), h1]
      have hlt : d < 10 := by
        have := digitSum_lt hdec.1.2.1
        rwa [h1, hdec.1.2.2] at this
      refine ⟨py!"0", natStr d, rfl, ?_, ?_, h1⟩
      · rw [show d / 10 ^ 1 = 0 by omega]
        exact natStr_decimal 0
      · rw [show d % 10 ^ 1 = d by omega]
        exact hdec.1
    · rw [if_neg (by omega), if_neg (by omega),
        show ((natStr d).length + (((0 : Nat) : Int) - 1)).toNat = (natStr d).length - 1 by omega]
      exact fixed_cut hdec (by omega)
  | succ j =>
    rw [if_neg (by omega), if_pos (by omega), show (((j + 1 : Nat) : Int) - 1).toNat = j by omega]
    refine ⟨natStr d ++ List.replicate j 48, py!"0", by simp [List.append_assoc], ?_, ?_, rfl⟩
    · rw [Nat.pow_succ, ← Nat.mul_assoc, Nat.pow_one, Nat.mul_div_cancel _ (by omega)]
      exact decimal_zeros hdec hd0 j
    · rw [Nat.pow_succ, ← Nat.mul_assoc, Nat.pow_one, Nat.mul_mod_left]
      exact (natStr_decimal 0).1

/-- `str` of the double nearest to `n/10` is `n/10` with one decimal -/
theorem repr_tenths {n : Nat} (hn : n < 10 ^ 15) : ∃ s, (roundDbl false n 10).repr = some s ∧ Fixed 1 s n := by
  by_cases h0 : n = 0
  · subst h0
    refine ⟨py!"0.0", by decide +kernel, py!"0", py!"0", rfl, natStr_decimal 0, (natStr_decimal 0).1, rfl⟩
  · obtain ⟨m, e, hx, hr⟩ := tenths_frac (n := n) (by omega)
    have hden := dblFrac_pos m e
    have herr := (rne_error (a := (dblFrac m e).1 * 10) hden).1
    have herr2 := (rne_error (a := (dblFrac m e).1 * 10) hden).2
    rw [hr] at herr herr2
    have hm : m ≠ 0 := by
      rintro rfl
      have hz : (dblFrac 0 e).1 = 0 := by unfold dblFrac; split <;> simp
      rw [hz] at herr
      have : 1 * (dblFrac 0 e).2 ≤ n * (dblFrac 0 e).2 := Nat.mul_le_mul_right _ (by omega)
      omega
    have hfl : (dblFrac m e).1 / (dblFrac m e).2 < 10 ^ 14 := by
      rw [Nat.div_lt_iff_lt_mul hden]
      have : (n + 1) * (dblFrac m e).2 ≤ 10 ^ 15 * (dblFrac m e).2 := Nat.mul_le_mul_right _ hn
      rw [Nat.add_mul, Nat.one_mul] at this
      omega
    have hlen := decimal_length_lt (natStr_decimal ((dblFrac m e).1 / (dblFrac m e).2)) (by omega) hfl
    generalize hs : (natStr ((dblFrac m e).1 / (dblFrac m e).2)).length = s at hlen
    have hpow : 10 ^ (s + 1) ≤ 10 ^ 15 := Nat.pow_le_pow_right (by omega) (by omega)
    obtain ⟨d, j, h1, h2⟩ := shortest_tenths hx (s + 1) (s + 1075) (by omega) (by omega)
    rw [show ((s + 1 : Nat) : Int) - 1 = s by omega] at h1
    refine ⟨layoutRepr d ((j : Int) - 1), ?_, ?_⟩
    · rw [hx]
      unfold Dbl.repr
      simp only [hs, h1, if_neg hm]
      rfl
    · rw [← h2]
      exact layoutRepr_tenths (by omega) (by omega)

end Arinc
