import Verif.Spec.Repr
import Verif.Py.Repr
import Verif.Lemmas.Double
import Verif.Lemmas.Value
import Verif.Lemmas.Number
/-!
# `Dbl.repr` finds the shortest decimal
-/
namespace Py
open Spec Arinc

/-! ### The numbers that are rounded to a double -/

theorem near_iff {v q y : ℚ} : |v - q| ≤ |y - q| ↔ (v < y → 2 * q ≤ v + y) ∧ (y < v → v + y ≤ 2 * q) := by
  constructor
  · intro h
    refine ⟨fun hy => ?_, fun hy => ?_⟩
    · rcases abs_cases (v - q) with ⟨h1, h1'⟩ | ⟨h1, h1'⟩ <;> rcases abs_cases (y - q) with ⟨h2, h2'⟩ | ⟨h2, h2'⟩ <;>
        rw [h1, h2] at h <;> linarith
    · rcases abs_cases (v - q) with ⟨h1, h1'⟩ | ⟨h1, h1'⟩ <;> rcases abs_cases (y - q) with ⟨h2, h2'⟩ | ⟨h2, h2'⟩ <;>
        rw [h1, h2] at h <;> linarith
  · rintro ⟨ha, hb⟩
    rcases lt_trichotomy v y with hy | rfl | hy
    · have := ha hy
      rcases abs_cases (v - q) with ⟨h1, h1'⟩ | ⟨h1, h1'⟩ <;> rcases abs_cases (y - q) with ⟨h2, h2'⟩ | ⟨h2, h2'⟩ <;>
        rw [h1, h2] <;> linarith
    · exact le_refl _
    · have := hb hy
      rcases abs_cases (v - q) with ⟨h1, h1'⟩ | ⟨h1, h1'⟩ <;> rcases abs_cases (y - q) with ⟨h2, h2'⟩ | ⟨h2, h2'⟩ <;>
        rw [h1, h2] <;> linarith

theorem tie_iff {v q y : ℚ} (hy : y ≠ v) : |y - q| = |v - q| ↔ 2 * q = v + y := by
  constructor
  · intro h
    rcases abs_eq_abs.1 h with h | h
    · exact absurd (by linarith) hy
    · linarith
  · intro h
    rw [show y - q = -(v - q) by linarith, abs_neg]

/-- a number between two that are rounded to a double is rounded to it -/
theorem rounds_between {neg : Bool} {m : ℕ} {e : ℤ} {a b q : ℚ} (ha : Rounds neg a (.fin neg m e))
    (hb : Rounds neg b (.fin neg m e)) (h1 : a ≤ q) (h2 : q ≤ b) : Rounds neg q (.fin neg m e) := by
  cases ha with
  | fin hm he he' hn na ta =>
    cases hb with
    | fin _ _ _ _ nb tb =>
      refine .fin hm he he' hn (fun y hy => ?_) (fun y hy hne ht => ?_)
      · have p := near_iff.1 (na y hy)
        have r := near_iff.1 (nb y hy)
        exact near_iff.2 ⟨fun h => by linarith [r.1 h], fun h => by linarith [p.2 h]⟩
      · have p := near_iff.1 (na y hy)
        have r := near_iff.1 (nb y hy)
        have ht := (tie_iff hne).1 ht
        rcases lt_or_gt_of_ne hne with h | h
        · exact ta y hy hne ((tie_iff hne).2 (by linarith [p.2 h]))
        · exact tb y hy hne ((tie_iff hne).2 (by linarith [r.1 h]))

/-- a double is rounded to itself -/
theorem rounds_self {neg : Bool} {m : ℕ} {e : ℤ} (hm : m < 2 ^ 53) (he : -1074 ≤ e) (he' : e ≤ 971)
    (hn : 2 ^ 52 ≤ m ∨ e = -1074) : Rounds neg (m * 2 ^ e) (.fin neg m e) := by
  refine .fin hm he he' hn (fun y _ => ?_) (fun y _ hne ht => ?_)
  · simp
  · have := (tie_iff hne).1 ht
    exact absurd (by linarith) hne

/-- numbers that are rounded to a double are not more than half as big again -/
theorem rounds_bound {neg : Bool} {m : ℕ} {e : ℤ} {q : ℚ} (hm : m ≠ 0) (h : Rounds neg q (.fin neg m e)) :
    0 < q ∧ 2 * q ≤ 3 * (m * 2 ^ e) := by
  have hm0 : (0 : ℚ) < m := by exact_mod_cast Nat.pos_of_ne_zero hm
  have hp := two_zpow_pos e
  have hv : (0 : ℚ) < m * 2 ^ e := by positivity
  cases h with
  | fin hm he he' hn near even =>
    have hd : IsBinary (2 * (m * 2 ^ e)) :=
      ⟨m, e + 1, hm, by omega, by rw [zpow_add₀ (by norm_num), zpow_one]; ring⟩
    have h0 : IsBinary 0 := ⟨0, 0, by norm_num, by norm_num, by norm_num⟩
    have p := (near_iff.1 (near _ hd)).1 (by linarith)
    have r := (near_iff.1 (near _ h0)).2 hv
    exact ⟨by linarith, by linarith⟩

/-! ### The search -/

/-- what is looked for with a given power of ten -/
def BestAt (m : ℕ) (e : ℤ) (k : ℤ) (n : ℕ) : Prop :=
  Rounds false (n * 10 ^ k) (.fin false m e) ∧
  (∀ n' : ℕ, Rounds false (n' * 10 ^ k) (.fin false m e) →
    |(n * 10 ^ k : ℚ) - m * 2 ^ e| ≤ |(n' * 10 ^ k : ℚ) - m * 2 ^ e|) ∧
  ∀ n' : ℕ, n' ≠ n → Rounds false (n' * 10 ^ k) (.fin false m e) →
    |(n' * 10 ^ k : ℚ) - m * 2 ^ e| = |(n * 10 ^ k : ℚ) - m * 2 ^ e| → n % 2 = 0

theorem ten_zpow_pos (k : ℤ) : (0 : ℚ) < 10 ^ k := by positivity

theorem bestAt_unique {m : ℕ} {e k : ℤ} {n n' : ℕ} (h : BestAt m e k n) (h' : BestAt m e k n') : n = n' := by
  by_contra hne
  obtain ⟨r, near, even⟩ := h
  obtain ⟨r', near', even'⟩ := h'
  have ht := le_antisymm (near _ r') (near' _ r)
  have e1 := even n' (Ne.symm hne) r' ht.symm
  have e2 := even' n hne r ht
  have hp := ten_zpow_pos k
  -- the number in the middle is nearer than both
  have key : ∀ {a b : ℕ}, a < b → a % 2 = 0 → b % 2 = 0 → Rounds false (a * 10 ^ k) (.fin false m e) →
      Rounds false (b * 10 ^ k) (.fin false m e) → |(a * 10 ^ k : ℚ) - m * 2 ^ e| = |(b * 10 ^ k : ℚ) - m * 2 ^ e| →
      (∀ n' : ℕ, Rounds false (n' * 10 ^ k) (.fin false m e) →
        |(a * 10 ^ k : ℚ) - m * 2 ^ e| ≤ |(n' * 10 ^ k : ℚ) - m * 2 ^ e|) → False := by
    intro a b hab ha hb ra rb hd hn
    have h1 : (a : ℚ) + 2 ≤ b := by
      have : a + 2 ≤ b := by omega
      exact_mod_cast this
    have e1 : (a : ℚ) * 10 ^ k + 2 * 10 ^ k ≤ b * 10 ^ k := by nlinarith
    have rm : Rounds false (((a + 1 : ℕ) : ℚ) * 10 ^ k) (.fin false m e) := by
      refine rounds_between ra rb ?_ ?_ <;> push_cast <;> linarith
    have := hn _ rm
    push_cast at this
    rw [add_mul, one_mul] at this
    have hne : (b : ℚ) * 10 ^ k ≠ a * 10 ^ k := by linarith
    rw [abs_sub_comm, abs_sub_comm ((b : ℚ) * 10 ^ k)] at hd
    rw [abs_sub_comm, abs_sub_comm ((a : ℚ) * 10 ^ k + 10 ^ k)] at this
    rcases abs_cases ((m : ℚ) * 2 ^ e - a * 10 ^ k) with ⟨h2, h2'⟩ | ⟨h2, h2'⟩ <;>
      rcases abs_cases ((m : ℚ) * 2 ^ e - b * 10 ^ k) with ⟨h3, h3'⟩ | ⟨h3, h3'⟩ <;>
      rcases abs_cases ((m : ℚ) * 2 ^ e - (a * 10 ^ k + 10 ^ k)) with ⟨h4, h4'⟩ | ⟨h4, h4'⟩ <;>
      rw [h2] at hd this <;> rw [h3] at hd <;> rw [h4] at this <;> linarith
  rcases lt_or_gt_of_ne hne with h | h
  · exact key h e1 e2 r r' ht near
  · exact key h e2 e1 r' r ht.symm near'

/-- the fraction in `backAt` -/
theorem backAt_scale {num den : ℕ} {k : ℤ} (hd : 0 < den) {s : ℕ × ℕ}
    (hs : s = if 0 ≤ k then (num, den * 10 ^ k.toNat) else (num * 10 ^ (-k).toNat, den)) :
    0 < s.2 ∧ (s.1 : ℚ) / s.2 * 10 ^ k = num / den := by
  subst hs
  have hd' : (den : ℚ) ≠ 0 := by exact_mod_cast hd.ne'
  split
  · next h =>
    obtain ⟨j, rfl⟩ := Int.eq_ofNat_of_zero_le h
    refine ⟨by simp only; positivity, ?_⟩
    simp only [Int.toNat_natCast, zpow_natCast]
    push_cast
    field_simp
  · next h =>
    obtain ⟨j, hj⟩ := Int.eq_ofNat_of_zero_le (show 0 ≤ -k by omega)
    have : k = -(j : ℤ) := by omega
    subst this
    refine ⟨hd, ?_⟩
    simp only [neg_neg, Int.toNat_natCast, zpow_neg, zpow_natCast]
    push_cast
    field_simp

theorem floor_bounds {a b : ℕ} (hb : 0 < b) : ((a / b : ℕ) : ℚ) ≤ a / b ∧ (a : ℚ) / b < ((a / b : ℕ) : ℚ) + 1 := by
  have hq : (0 : ℚ) < b := by exact_mod_cast hb
  constructor
  · rw [le_div_iff₀ hq]; exact_mod_cast Nat.div_mul_le_self a b
  · rw [div_lt_iff₀ hq]
    have := Nat.lt_div_mul_add (a := a) hb
    have : a < (a / b + 1) * b := by rw [Nat.add_mul, Nat.one_mul]; exact this
    exact_mod_cast this

theorem backAt_spec {m : ℕ} {e : ℤ} (hm : m < 2 ^ 53) (he : -1074 ≤ e) (he' : e ≤ 971) (hn : 2 ^ 52 ≤ m ∨ e = -1074)
    (k : ℤ) : match backAt (.fin false m e) (dblFrac m e).1 (dblFrac m e).2 k with
      | some n => BestAt m e k n
      | none => ∀ n : ℕ, ¬ Rounds false (n * 10 ^ k) (.fin false m e) := by
  obtain ⟨hv, hd⟩ := dblFrac_val m e
  generalize (dblFrac m e).1 = num at *
  generalize (dblFrac m e).2 = den at *
  unfold backAt
  generalize hs : (if 0 ≤ k then (num, den * 10 ^ k.toNat) else (num * 10 ^ (-k).toNat, den)) = s
  dsimp only
  obtain ⟨s2, sv⟩ := backAt_scale (k := k) hd hs.symm
  rw [hv] at sv
  obtain ⟨f1, f2⟩ := floor_bounds (a := s.1) s2
  have hp := ten_zpow_pos k
  have self := rounds_self (neg := false) hm he he' hn
  generalize hr : (s.1 : ℚ) / s.2 = r at *
  generalize hlo : s.1 / s.2 = lo at *
  rw [← sv] at self
  have dist : ∀ n : ℕ, |(n * 10 ^ k : ℚ) - m * 2 ^ e| = |(n : ℚ) - r| * 10 ^ k := by
    intro n; rw [← sv, ← sub_mul, abs_mul, abs_of_pos hp]
  have below : ∀ {n : ℕ}, n ≤ lo → Rounds false (n * 10 ^ k) (.fin false m e) →
      Rounds false (lo * 10 ^ k) (.fin false m e) := by
    intro n hn h
    have : (n : ℚ) ≤ lo := by exact_mod_cast hn
    exact rounds_between h self (by gcongr) (by gcongr)
  have above : ∀ {n : ℕ}, lo + 1 ≤ n → Rounds false (n * 10 ^ k) (.fin false m e) →
      Rounds false ((lo + 1 : ℕ) * 10 ^ k) (.fin false m e) := by
    intro n hn h
    have : ((lo + 1 : ℕ) : ℚ) ≤ n := by exact_mod_cast hn
    have h3 : r ≤ ((lo + 1 : ℕ) : ℚ) := by push_cast; exact f2.le
    exact rounds_between self h (by gcongr) (by gcongr)
  split
  · next n hn =>
    split at hn
    · next hL =>
      rw [decDbl_iff] at hL
      split at hn
      · next hH =>
        rw [decDbl_iff] at hH
        -- both: the nearest
        simp only [Option.some.injEq] at hn
        have hnr := (rne_iff s2).1 hn
        rw [hr] at hnr
        obtain ⟨n1, n2⟩ := hnr
        have hcase : n = lo ∨ n = lo + 1 := by
          subst hn; subst hlo; unfold rne; split
          · exact .inl rfl
          · split
            · exact .inr rfl
            · omega
        refine ⟨?_, fun n' _ => ?_, fun n' hne _ ht => ?_⟩
        · rcases hcase with rfl | rfl
          · exact hL
          · exact hH
        · rw [dist, dist]; have := n1 n'; gcongr
        · rw [dist, dist] at ht
          exact n2 n' hne (mul_right_cancel₀ hp.ne' ht)
      · next hH =>
        rw [decDbl_iff] at hH
        cases hn
        have only : ∀ n' : ℕ, Rounds false (n' * 10 ^ k) (.fin false m e) → n' ≤ lo := by
          intro n' h'
          by_contra hc
          exact hH (above (by omega) h')
        have hd0 : |(lo : ℚ) - r| = r - lo := by rw [abs_sub_comm, abs_of_nonneg (by linarith)]
        refine ⟨hL, fun n' h' => ?_, fun n' hne h' ht => ?_⟩
        · have : (n' : ℚ) ≤ lo := by exact_mod_cast only n' h'
          rw [dist, dist, hd0, abs_sub_comm, abs_of_nonneg (show 0 ≤ r - n' by linarith)]
          gcongr
        · have h1 : (n' : ℚ) < lo := by
            have := only n' h'
            have : n' < lo := by omega
            exact_mod_cast this
          rw [dist, dist] at ht
          have ht := mul_right_cancel₀ hp.ne' ht
          rw [hd0, abs_sub_comm, abs_of_nonneg (show 0 ≤ r - n' by linarith)] at ht
          exact absurd ht (by linarith)
    · next hL =>
      rw [decDbl_iff] at hL
      split at hn
      · next hH =>
        rw [decDbl_iff] at hH
        cases hn
        have only : ∀ n' : ℕ, Rounds false (n' * 10 ^ k) (.fin false m e) → lo + 1 ≤ n' := by
          intro n' h'
          by_contra hc
          exact hL (below (by omega) h')
        have hd0 : |((lo + 1 : ℕ) : ℚ) - r| = ((lo + 1 : ℕ) : ℚ) - r := abs_of_nonneg (by push_cast; linarith)
        have hl1 : r < ((lo + 1 : ℕ) : ℚ) := by push_cast; exact f2
        refine ⟨hH, fun n' h' => ?_, fun n' hne h' ht => ?_⟩
        · have : ((lo + 1 : ℕ) : ℚ) ≤ n' := by exact_mod_cast only n' h'
          rw [dist, dist, hd0, abs_of_nonneg (show 0 ≤ n' - r by linarith)]
          gcongr
        · have h1 : ((lo + 1 : ℕ) : ℚ) < n' := by
            have := only n' h'
            have : lo + 1 < n' := by omega
            exact_mod_cast this
          rw [dist, dist] at ht
          have ht := mul_right_cancel₀ hp.ne' ht
          rw [hd0, abs_of_nonneg (show 0 ≤ n' - r by linarith)] at ht
          exact absurd ht (by linarith)
      · cases hn
  · next hn =>
    split at hn
    · split at hn <;> cases hn
    · next hL =>
      rw [decDbl_iff] at hL
      split at hn
      · cases hn
      · next hH =>
        rw [decDbl_iff] at hH
        intro n h
        by_cases hle : n ≤ lo
        · exact hL (below hle h)
        · exact hH (above (by omega) h)

/-- the search ends, with the greatest power of ten -/
theorem shortest_spec {m : ℕ} {e : ℤ} (hm : m < 2 ^ 53) (he : -1074 ≤ e) (he' : e ≤ 971)
    (hn : 2 ^ 52 ≤ m ∨ e = -1074) (fuel : ℕ) (k : ℤ)
    (hmax : ∀ (n : ℕ) (k' : ℤ), Rounds false (n * 10 ^ k') (.fin false m e) → k' ≤ k)
    (hex : ∃ (n : ℕ) (k' : ℤ), Rounds false (n * 10 ^ k') (.fin false m e) ∧ k < k' + fuel) :
    ∃ n k', shortest (.fin false m e) (dblFrac m e).1 (dblFrac m e).2 fuel k = some (n, k') ∧ BestAt m e k' n ∧
      ∀ (n' : ℕ) (k'' : ℤ), Rounds false (n' * 10 ^ k'') (.fin false m e) → k'' ≤ k' := by
  induction fuel generalizing k with
  | zero =>
    obtain ⟨n, k', h, hk⟩ := hex
    have := hmax n k' h
    simp at hk
    omega
  | succ fuel ih =>
    have hb := backAt_spec hm he he' hn k
    unfold shortest
    split at hb
    · next n h => rw [h]; exact ⟨n, k, rfl, hb, hmax⟩
    · next h =>
      rw [h]
      refine ih (k - 1) (fun n k' hr => ?_) ?_
      · have := hmax n k' hr
        rcases eq_or_lt_of_le this with rfl | hlt
        · exact absurd hr (hb n)
        · omega
      · obtain ⟨n, k', hr, hk⟩ := hex
        refine ⟨n, k', hr, ?_⟩
        push_cast at hk
        omega

/-! ### The text -/

theorem numeral_digit {s : Str} {n : ℕ} (h : Numeral s n) {c : ℕ} (hc : c ∈ s) : 48 ≤ c ∧ c ≤ 57 := h.2.1 c hc

theorem layoutRepr_written (n : ℕ) (k : ℤ) : Written n k (layoutRepr n k) := by
  unfold layoutRepr
  have hd := natStr_decimal n
  generalize hds : natStr n = ds at *
  have hne : ds ≠ [] := hd.1.1
  have hlen : 0 < ds.length := List.length_pos_iff.2 hne
  simp only
  split
  · next hp =>
    split
    · next h0 =>
      obtain ⟨j, hj⟩ := Int.eq_ofNat_of_zero_le (show 0 ≤ -((ds.length : ℤ) + k) by omega)
      have hk : k = -((ds.length + j : ℕ) : ℤ) := by push_cast; omega
      subst hk
      rw [hj]
      exact .small hd (by omega)
    · next h0 =>
      split
      · next hk =>
        obtain ⟨j, rfl⟩ := Int.eq_ofNat_of_zero_le hk
        exact .whole hd (by omega)
      · next hk =>
        obtain ⟨j, hj⟩ := Int.eq_ofNat_of_zero_le (show 0 ≤ (ds.length : ℤ) + k by omega)
        rw [hj]
        simp only [Int.toNat_natCast] at *
        have hkl : k = -((ds.drop j).length : ℤ) := by
          rw [List.length_drop]; omega
        have := Written.point (n := n) (ip := ds.take j) (fp := ds.drop j) (by rwa [List.take_append_drop])
          (by
            intro h
            rcases List.take_eq_nil_iff.1 h with h | h
            · omega
            · exact hne h)
          (by intro h; rw [h] at hkl; simp at hkl; omega)
          (by rw [List.length_take]; omega)
        rwa [← hkl] at this
  · next hp =>
    cases ds with
    | nil => exact absurd rfl hne
    | cons c ds =>
      simp only [List.take_succ_cons, List.take_zero, List.drop_succ_cons, List.drop_zero, List.length_cons] at *
      have hb : (if ds.length + 1 = 1 then ([] : Str) else py!"." ++ ds) = if ds = [] then [] else py!"." ++ ds := by
        cases ds <;> simp
      rw [hb]
      generalize hE : (((ds.length + 1 : ℕ) : ℤ) + k - 1) = E at *
      have hex : ∀ e : ℕ, (zfill 2 (natStr e)).length = 2 ∨ (3 ≤ (zfill 2 (natStr e)).length ∧ Decimal (zfill 2 (natStr e)) e) := by
        intro e
        have hde := natStr_decimal e
        by_cases hl : (natStr e).length ≤ 2
        · left; rw [zfill_length]; omega
        · right
          have : zfill 2 (natStr e) = natStr e := by
            unfold zfill
            rw [show 2 - (natStr e).length = 0 by omega]
            rfl
          rw [this]
          exact ⟨by omega, hde⟩
      have := Written.exponent (n := n) (k := k) (neg := decide (E < 0)) (e := E.natAbs) hd
        (by by_cases h : E < 0 <;> simp only [h, decide_true, decide_false, if_true, Bool.false_eq_true, if_false] <;> omega)
        (by by_cases h : E < 0 <;> simp only [h, decide_true, decide_false, if_true, Bool.false_eq_true, if_false] <;> omega)
        (numeral_zfill (natStr_decimal E.natAbs).1 2) (hex _)
      simpa [List.append_assoc] using this

theorem decimal_len {s t : Str} {n : ℕ} (hs : Decimal s n) (ht : Decimal t n) : s = t := decimal_unique hs ht

theorem written_unique {n : ℕ} {k : ℤ} {s : Str} (h : Written n k s) : s = layoutRepr n k := by
  unfold layoutRepr
  cases h with
  | @whole j ds hd hl =>
    rw [← decimal_unique hd (natStr_decimal n)]
    have := List.length_pos_iff.2 hd.1.1
    simp only
    rw [if_pos (by omega), if_neg (by omega), if_pos (by omega)]
    simp
  | @point ip fp hd hi hf hl =>
    rw [← decimal_unique hd (natStr_decimal n)]
    have h1 := List.length_pos_iff.2 hi
    have h2 := List.length_pos_iff.2 hf
    have e : (((ip ++ fp).length : ℕ) : ℤ) + -(fp.length : ℤ) = (ip.length : ℕ) := by
      rw [List.length_append]; push_cast; omega
    simp only [e]
    rw [if_pos (by omega), if_neg (by omega), if_neg (by omega)]
    simp
  | @small j ds hd hj =>
    rw [← decimal_unique hd (natStr_decimal n)]
    have e : ((ds.length : ℕ) : ℤ) + -((ds.length + j : ℕ) : ℤ) = -(j : ℤ) := by push_cast; omega
    simp only [e]
    rw [if_pos (by omega), if_pos (by omega)]
    simp
  | @exponent _ c ds ex neg e hd hk he hex hex2 =>
    rw [← decimal_unique hd (natStr_decimal n)]
    have hE : (((c :: ds).length : ℕ) : ℤ) + k = (if neg then -(e : ℤ) else e) + 1 := by
      rw [← hk]; simp; ring
    have hx : ex = zfill 2 (natStr e) := by
      rcases hex2 with h2 | ⟨h3, hde⟩
      · refine numeral_unique_length hex.2.1 (numeral_zfill (natStr_decimal e).1 2).2.1 ?_ ?_
        · have := decimal_length_le (natStr_decimal e) hex
          rw [zfill_length]; omega
        · rw [hex.2.2, (numeral_zfill (natStr_decimal e).1 2).2.2]
      · have := decimal_unique hde (natStr_decimal e)
        rw [← this]
        unfold zfill
        rw [show 2 - ex.length = 0 by omega]
        rfl
    subst hx
    have hb : (if (c :: ds).length = 1 then ([] : Str) else py!"." ++ ds) = if ds = [] then [] else py!"." ++ ds := by
      cases ds <;> simp
    cases neg with
    | true =>
      simp only [if_true] at hE he hk ⊢
      simp only [hE]
      have h1 : ¬ (-4 < -(e : ℤ) + 1 ∧ -(e : ℤ) + 1 ≤ 16) := by omega
      have h2 : -(e : ℤ) + 1 - 1 < 0 := by omega
      rw [if_neg h1, if_pos h2]
      simp only [List.take_succ_cons, List.take_zero, List.drop_succ_cons, List.drop_zero, hb]
      rw [show (-(e : ℤ) + 1 - 1).natAbs = e by omega]
      simp
    | false =>
      simp only [Bool.false_eq_true, if_false] at hE he hk ⊢
      simp only [hE]
      have h1 : ¬ (-4 < (e : ℤ) + 1 ∧ (e : ℤ) + 1 ≤ 16) := by omega
      have h2 : ¬ (e : ℤ) + 1 - 1 < 0 := by omega
      rw [if_neg h1, if_neg h2]
      simp only [List.take_succ_cons, List.take_zero, List.drop_succ_cons, List.drop_zero, hb]
      rw [show ((e : ℤ) + 1 - 1).natAbs = e by omega]
      simp

theorem layoutRepr_iff {n : ℕ} {k : ℤ} {s : Str} : layoutRepr n k = s ↔ Written n k s :=
  ⟨fun h => h ▸ layoutRepr_written n k, fun h => (written_unique h).symm⟩

/-! ### `str(float)` -/

theorem rounds_encoded {neg : Bool} {q : ℚ} {x : Dbl} (h : Rounds neg q x) : Encoded x := by
  cases h with
  | fin hm he he' hn _ _ => exact ⟨hm, he, he', hn⟩
  | inf _ => trivial

theorem quotient_encoded {d : ℕ} {x y : Dbl} (h : QuotientOf d x y) : Encoded y := by
  cases h with
  | nan => trivial
  | inf => trivial
  | fin h => exact rounds_encoded h

theorem denotes_encoded {l : Lit} {x : Dbl} (h : Denotes l x) : Encoded x := by
  cases h with
  | nan => trivial
  | inf => trivial
  | dec h => exact rounds_encoded h

/-- every double is a decimal fraction with as many decimals as its exponent is below zero -/
theorem exact_decimal (m J : ℕ) {e : ℤ} (he : -(J : ℤ) ≤ e) :
    ∃ n : ℕ, (n * 10 ^ (-(J : ℤ)) : ℚ) = m * 2 ^ e := by
  obtain ⟨j, hj⟩ := Int.eq_ofNat_of_zero_le (show 0 ≤ e + J by omega)
  refine ⟨m * 2 ^ j * 5 ^ J, ?_⟩
  have h : e = j + -(J : ℤ) := by omega
  rw [h, zpow_add₀ (by norm_num), zpow_natCast, zpow_neg, zpow_neg, zpow_natCast, zpow_natCast,
    show (10 : ℚ) = 2 * 5 by norm_num, mul_pow]
  push_cast
  field_simp

theorem shortest_found {m : ℕ} {e : ℤ} (hm : m < 2 ^ 53) (he : -1074 ≤ e) (he' : e ≤ 971)
    (hn : 2 ^ 52 ≤ m ∨ e = -1074) (h0 : m ≠ 0) {start : ℕ}
    (hs : start = (natStr ((dblFrac m e).1 / (dblFrac m e).2)).length) :
    ∃ n k', shortest (.fin false m e) (dblFrac m e).1 (dblFrac m e).2 (start + 1075) start = some (n, k') ∧
      BestAt m e k' n ∧ ∀ (n' : ℕ) (k'' : ℤ), Rounds false (n' * 10 ^ k'') (.fin false m e) → k'' ≤ k' := by
  obtain ⟨hv, hd⟩ := dblFrac_val m e
  have hlt : (m * 2 ^ e : ℚ) < 10 ^ start := by
    have h1 := numeral_lt (natStr_decimal ((dblFrac m e).1 / (dblFrac m e).2)).1 (Nat.le_of_eq hs.symm)
    have h2 := (floor_bounds (a := (dblFrac m e).1) hd).2
    rw [hv] at h2
    have h3 : (((dblFrac m e).1 / (dblFrac m e).2 : ℕ) : ℚ) + 1 ≤ 10 ^ start := by exact_mod_cast h1
    exact lt_of_lt_of_le h2 h3
  refine shortest_spec hm he he' hn _ _ (fun n k' hr => ?_) ?_
  · by_contra hk
    obtain ⟨b1, b2⟩ := rounds_bound h0 hr
    have hp := ten_zpow_pos k'
    have hn1 : 1 ≤ n := by
      rcases Nat.eq_zero_or_pos n with h | h
      · subst h; simp at b1
      · exact h
    have hn1' : (1 : ℚ) ≤ n := by exact_mod_cast hn1
    have h2 : (10 : ℚ) ^ (start + 1) ≤ 10 ^ k' := by
      rw [← zpow_natCast]
      exact zpow_le_zpow_right₀ (by norm_num) (by push_cast; omega)
    have h3 : (10 : ℚ) ^ k' ≤ n * 10 ^ k' := by nlinarith
    have hpos : (0 : ℚ) < m * 2 ^ e := by
      have : (0 : ℚ) < m := by exact_mod_cast Nat.pos_of_ne_zero h0
      have := two_zpow_pos e
      positivity
    rw [pow_succ] at h2
    generalize (m * 2 ^ e : ℚ) = v at *
    generalize (n * 10 ^ k' : ℚ) = q at *
    generalize (10 : ℚ) ^ k' = r at *
    generalize (10 : ℚ) ^ start = t at *
    linarith
  · obtain ⟨n, h⟩ := exact_decimal m 1074 (e := e) (by push_cast; exact he)
    refine ⟨n, -((1074 : ℕ) : ℤ), ?_, ?_⟩
    · rw [h]; exact rounds_self hm he he' hn
    · push_cast; omega

theorem repr_short {x : Dbl} (hx : Encoded x) : ∃ s, x.repr = some s ∧ ShortText x s := by
  cases x with
  | nan => exact ⟨_, rfl, .nan⟩
  | inf neg => cases neg <;> [exact ⟨_, rfl, .inf⟩; exact ⟨_, rfl, .negInf⟩]
  | fin neg m e =>
    obtain ⟨hm, he, he', hn⟩ := hx
    unfold Dbl.repr
    by_cases h0 : m = 0
    · subst h0; exact ⟨_, rfl, .zero⟩
    · simp only [if_neg h0]
      obtain ⟨n, k, h1, ⟨b1, b2, b3⟩, h3⟩ := shortest_found hm he he' hn h0 rfl
      rw [h1]
      exact ⟨_, rfl, .fin h0 b1 h3 b2 b3 (layoutRepr_written n k)⟩

theorem short_unique {x : Dbl} {s t : Str} (h : ShortText x s) (h' : ShortText x t) : s = t := by
  cases h with
  | nan => cases h'; rfl
  | inf => cases h'; rfl
  | negInf => cases h'; rfl
  | zero =>
    cases h' with
    | zero => rfl
    | fin h0 => exact absurd rfl h0
  | fin h0 b sh near even hs =>
    cases h' with
    | zero => exact absurd rfl h0
    | fin h0' b' sh' near' even' hs' =>
      have hk := le_antisymm (sh' _ _ b) (sh _ _ b')
      subst hk
      have := bestAt_unique ⟨b, near, even⟩ ⟨b', near', even'⟩
      subst this
      rw [written_unique hs, written_unique hs']

theorem repr_iff {x : Dbl} (hx : Encoded x) {s : Str} : x.repr = some s ↔ ShortText x s := by
  obtain ⟨t, h1, h2⟩ := repr_short hx
  constructor
  · intro h; rw [h1] at h; cases h; exact h2
  · intro h; rw [h1, short_unique h h2]

/-! ### the fewest digits -/

/-- between two powers of ten -/
theorem decimal_bounds {s : Str} {n : ℕ} (h : Decimal s n) (h0 : n ≠ 0) :
    10 ^ (s.length - 1) ≤ n ∧ n < 10 ^ s.length := by
  refine ⟨?_, numeral_lt h.1 (Nat.le_refl _)⟩
  obtain ⟨h1, h2⟩ := h
  cases s with
  | nil => exact absurd rfl h1.1
  | cons c t =>
    have hv := h1.2.2
    have hc := h1.2.1 c (by simp)
    have hne : c ≠ 48 := by
      intro e
      rw [h2 (by rw [e]; rfl)] at hv
      exact h0 (by simpa [digitSum] using hv.symm)
    rw [digitSum] at hv
    simp only [List.length_cons, Nat.add_sub_cancel]
    have : 1 ≤ c - 48 := by omega
    nlinarith [Nat.pos_of_ne_zero (show (10 : ℕ) ^ t.length ≠ 0 by positivity)]

/-- a decimal that is rounded to a double other than zero is not zero -/
theorem rounds_ne_zero {m n : ℕ} {e k : ℤ} (h0 : m ≠ 0) (h : Rounds false (n * 10 ^ k) (.fin false m e)) : n ≠ 0 := by
  intro hn
  have := (rounds_bound h0 h).1
  rw [hn] at this
  simp at this

theorem fewest_digits {m n n' : ℕ} {e k k' : ℤ} {ds ds' : Str} (h0 : m ≠ 0)
    (back : Rounds false (n * 10 ^ k) (.fin false m e))
    (short : ∀ (n' : ℕ) (k' : ℤ), Rounds false (n' * 10 ^ k') (.fin false m e) → k' ≤ k)
    (hd : Decimal ds n) (back' : Rounds false (n' * 10 ^ k') (.fin false m e)) (hd' : Decimal ds' n') :
    ds.length ≤ ds'.length := by
  by_contra hlt
  obtain ⟨a1, a2⟩ := decimal_bounds hd (rounds_ne_zero h0 back)
  obtain ⟨b1, b2⟩ := decimal_bounds hd' (rounds_ne_zero h0 back')
  have hl' := List.length_pos_iff.2 hd'.1.1
  have hk := short _ _ back'
  -- the power of ten with which the range of the digits begins lies between the two
  have c1 : ((n' : ℚ) * 10 ^ k') ≤ (1 : ℕ) * 10 ^ (((ds.length - 1 : ℕ) : ℤ) + k) := by
    rw [zpow_add₀ (by norm_num), zpow_natCast]
    have hb : (n' : ℚ) ≤ 10 ^ (ds.length - 1) := by
      have : n' ≤ 10 ^ (ds.length - 1) :=
        le_of_lt (lt_of_lt_of_le b2 (Nat.pow_le_pow_right (by omega) (by omega)))
      exact_mod_cast this
    have hz : (10 : ℚ) ^ k' ≤ 10 ^ k := zpow_le_zpow_right₀ (by norm_num) hk
    have p := ten_zpow_pos k'
    have p' := ten_zpow_pos k
    have p'' : (0 : ℚ) ≤ n' := by positivity
    push_cast
    rw [one_mul]
    exact mul_le_mul hb hz p.le (by positivity)
  have c2 : ((1 : ℕ) : ℚ) * 10 ^ (((ds.length - 1 : ℕ) : ℤ) + k) ≤ n * 10 ^ k := by
    rw [zpow_add₀ (by norm_num), zpow_natCast]
    have ha : ((10 : ℚ) ^ (ds.length - 1)) ≤ n := by exact_mod_cast a1
    have p' := ten_zpow_pos k
    push_cast
    rw [one_mul]
    exact mul_le_mul_of_nonneg_right ha p'.le
  have := short _ _ (rounds_between back' back c1 c2)
  omega

/-- no zero at the end -/
theorem no_trailing_zero {m n : ℕ} {e k : ℤ} (back : Rounds false (n * 10 ^ k) (.fin false m e))
    (short : ∀ (n' : ℕ) (k' : ℤ), Rounds false (n' * 10 ^ k') (.fin false m e) → k' ≤ k) : n % 10 ≠ 0 := by
  intro h
  have e1 : ((n / 10 : ℕ) : ℚ) * 10 ^ (k + 1) = n * 10 ^ k := by
    rw [zpow_add₀ (by norm_num), zpow_one]
    have h2 : n = n / 10 * 10 := by omega
    have : (n : ℚ) = ((n / 10 : ℕ) : ℚ) * 10 := by exact_mod_cast h2
    rw [this]; ring
  have := short (n / 10) (k + 1) (by rw [e1]; exact back)
  omega

/-! ### reading it back -/

section
variable [PyUnicode]

theorem digit_dec {c : ℕ} (h : 48 ≤ c ∧ c ≤ 57) : IsDec c :=
  isDigit_toAscii.1 (by rw [toAscii_lt (by omega)]; exact isDigit_iff.2 h)

theorem denotes_digits {s : Str} (h : ∀ c ∈ s, 48 ≤ c ∧ c ≤ 57) : DigitsDenote s (digitSum s) := by
  have h1 := val_denote (ds := s) fun c hc => digit_dec (h c hc)
  rwa [map_toAscii_digits fun c hc => isDigit_iff.2 (h c hc), digitsVal_eq] at h1

theorem grouped_self {s : Str} (h : ∀ c ∈ s, c ≠ 95) : Grouped s s := by
  induction s with
  | nil => exact .nil
  | cons c s ih => exact .plain (h c (by simp)) (ih fun d hd => h d (by simp [hd]))

omit [PyUnicode] in
theorem spaced_self (s : Str) : Spaced s s := ⟨[], [], by simp, by simp, by simp⟩

omit [PyUnicode] in
theorem digitSum_zeros (j : ℕ) : digitSum (List.replicate j 48) = 0 := by
  induction j with
  | zero => rfl
  | succ j ih => rw [List.replicate_succ, digitSum, ih]; simp

/-- the text of a number is a text of that number, and has no underscore in it -/
theorem written_text {n : ℕ} {k : ℤ} {s : Str} (h : Written n k s) :
    (∀ c ∈ s, c ≠ 95) ∧ ∃ (n' : ℕ) (k' : ℤ), DecimalText s n' k' ∧ (n' * 10 ^ k' : ℚ) = n * 10 ^ k := by
  have zero : ∀ (j : ℕ), ∀ c ∈ List.replicate j 48, 48 ≤ c ∧ c ≤ 57 := by
    intro j c hc; rw [List.mem_replicate] at hc; omega
  cases h with
  | @whole j ds hd hl =>
    have hds := hd.1.2.1
    refine ⟨?_, digitSum (ds ++ List.replicate j 48 ++ [48]), 0 - ([48] : Str).length, ?_, ?_⟩
    · intro c hc
      simp only [List.mem_append, List.mem_cons, List.not_mem_nil, or_false] at hc
      rcases hc with (hc | hc) | hc | hc
      · have := hds c hc; omega
      · have := zero j c hc; omega
      · omega
      · omega
    · refine .point (ds := ds ++ List.replicate j 48) (fs := [48]) (ex := []) (by simp) (denotes_digits ?_) .none
      intro c hc
      simp only [List.mem_append, List.mem_cons, List.not_mem_nil, or_false] at hc
      rcases hc with (hc | hc) | hc
      · exact hds c hc
      · exact zero j c hc
      · omega
    · rw [digitSum_append, digitSum_append, digitSum_zeros, hd.1.2.2]
      simp [digitSum, zpow_neg]
  | @point ip fp hd hi hf hl =>
    have hds := hd.1.2.1
    refine ⟨?_, n, 0 - fp.length, ?_, ?_⟩
    · intro c hc
      simp only [List.mem_append, List.mem_cons, List.not_mem_nil, or_false] at hc
      rcases hc with (hc | hc) | hc
      · have := hds c (by simp [hc]); omega
      · omega
      · have := hds c (by simp [hc]); omega
    · have h1 := denotes_digits hds
      rw [hd.1.2.2] at h1
      have := DecimalText.point (ds := ip) (fs := fp) (ex := []) (by simp [hi]) h1 .none
      simpa using this
    · rw [zero_sub]
  | @small j ds hd hj =>
    have hds := hd.1.2.1
    refine ⟨?_, n, 0 - (List.replicate j 48 ++ ds).length, ?_, ?_⟩
    · intro c hc
      simp only [List.mem_append, List.mem_cons, List.not_mem_nil, or_false] at hc
      rcases hc with ((hc | hc) | hc) | hc
      · omega
      · omega
      · have := zero j c hc; omega
      · have := hds c hc; omega
    · have h1 : DigitsDenote ([48] ++ (List.replicate j 48 ++ ds)) n := by
        have : digitSum ([48] ++ (List.replicate j 48 ++ ds)) = n := by
          rw [digitSum_append, digitSum_append, digitSum_zeros, hd.1.2.2]
          simp [digitSum]
        rw [← this]
        refine denotes_digits fun c hc => ?_
        simp only [List.mem_append, List.mem_cons, List.not_mem_nil, or_false] at hc
        rcases hc with hc | hc | hc
        · omega
        · exact zero j c hc
        · exact hds c hc
      have := DecimalText.point (ds := [48]) (fs := List.replicate j 48 ++ ds) (ex := []) (by simp) h1 .none
      simpa using this
    · rw [zero_sub, List.length_append, List.length_replicate, Nat.add_comm]
  | @exponent _ c ds ex neg e hd hk he hex hex2 =>
    have hds := hd.1.2.1
    have hc := hds c (by simp)
    have h1 := denotes_digits hds
    rw [hd.1.2.2] at h1
    have hx : ExpText (101 :: ((if neg then py!"-" else py!"+") ++ ex)) (signed neg e) := by
      have hd2 := denotes_digits hex.2.1
      rw [hex.2.2] at hd2
      cases neg with
      | false => exact .some (Or.inl rfl) .plus hex.1 hd2
      | true => exact .some (Or.inl rfl) .minus hex.1 hd2
    refine ⟨?_, n, signed neg e - ds.length, ?_, ?_⟩
    · intro d hd'
      simp only [List.mem_append, List.mem_cons, List.not_mem_nil, or_false] at hd'
      rcases hd' with hd' | ((hd' | hd') | hd') | hd'
      · omega
      · split at hd'
        · cases hd'
        · simp only [List.mem_append, List.mem_cons, List.not_mem_nil, or_false] at hd'
          rcases hd' with hd' | hd'
          · omega
          · have := hds d (by simp [hd']); omega
      · omega
      · split at hd' <;> simp at hd' <;> omega
      · have := hex.2.1 d hd'; omega
    · by_cases hn : ds = []
      · subst hn
        have := DecimalText.whole (ds := [c]) (by simp) h1 hx
        simpa using this
      · have := DecimalText.point (ds := [c]) (fs := ds) (by simp) h1 hx
        simpa [if_neg hn] using this
    · rw [show signed neg e - (ds.length : ℤ) = k by unfold signed; omega]

omit [PyUnicode] in
theorem rounds_sign {neg : Bool} {q : ℚ} {m : ℕ} {e : ℤ} (h : Rounds false q (.fin false m e)) :
    Rounds neg q (.fin neg m e) := by
  cases h with
  | fin hm he he' hn near even => exact .fin hm he he' hn near even

/-- what is written reads back as the same double -/
theorem short_back {x : Dbl} {s : Str} (hx : Encoded x) (h : ShortText x s) : FloatText s x := by
  have signs : ∀ {neg : Bool} {u : Str} {l : Lit}, (∀ c ∈ u, c ≠ 95) → Unsigned neg u l →
      FloatLit ((if neg then py!"-" else []) ++ u) l := by
    intro neg u l hu h
    refine .mk (spaced_self _) (grouped_self ?_) (neg := neg) ?_ h
    · intro c hc
      simp only [List.mem_append] at hc
      rcases hc with hc | hc
      · cases neg <;> simp at hc
        omega
      · exact hu c hc
    · cases neg <;> [exact .none; exact .minus]
  cases h with
  | nan => exact ⟨.nan, signs (neg := false) (u := py!"nan") (by decide) (.nan rfl), .nan⟩
  | inf => exact ⟨.inf false, signs (neg := false) (u := py!"inf") (by decide) (.inf (Or.inl rfl)), .inf⟩
  | negInf => exact ⟨.inf true, signs (neg := true) (u := py!"inf") (by decide) (.inf (Or.inl rfl)), .inf⟩
  | @zero neg e =>
    obtain ⟨hm, he, he', hn⟩ := hx
    refine ⟨.dec neg 0 (0 - ([48] : Str).length), signs (by decide) (.number ?_), .dec ?_⟩
    · have h1 : DigitsDenote ([48] ++ [48]) 0 := denotes_digits (by decide)
      exact DecimalText.point (ds := [48]) (fs := [48]) (ex := []) (by simp) h1 .none
    · have := rounds_self (neg := neg) hm he he' hn
      simpa using this
  | fin h0 back short near even hs =>
    obtain ⟨h1, n', k', h2, h3⟩ := written_text hs
    exact ⟨.dec _ n' k', signs h1 (.number h2), .dec (h3 ▸ rounds_sign back)⟩

end

end Py
