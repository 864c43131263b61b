import Verif.Lemmas.Over
import Verif.Model.Cells
import Verif.Lemmas.Seventeen
import Verif.Lemmas.Total
/-!
# How long the texts are that the decoders make
-/
namespace Arinc
open Py Spec

/-- at most `a` characters, at most `b` of them line feeds -/
def Size (a b : Nat) (s : Str) : Prop := s.length ≤ a ∧ s.count 10 ≤ b

theorem size_mono {a b a' b' : Nat} {s : Str} (h : Size a b s) (ha : a ≤ a') (hb : b ≤ b') : Size a' b' s :=
  ⟨Nat.le_trans h.1 ha, Nat.le_trans h.2 hb⟩

theorem size_lit (s : Str) : Size s.length (s.count 10) s := ⟨Nat.le_refl _, Nat.le_refl _⟩

theorem size_append {a b a' b' : Nat} {s t : Str} (hs : Size a b s) (ht : Size a' b' t) :
    Size (a + a') (b + b') (s ++ t) := by
  obtain ⟨h1, h2⟩ := hs
  obtain ⟨h3, h4⟩ := ht
  exact ⟨by rw [List.length_append]; omega, by rw [List.count_append]; omega⟩

theorem size_sub {a b : Nat} {s t : Str} (ht : Size a b t) (h : s.Sublist t) : Size a b s :=
  ⟨Nat.le_trans h.length_le ht.1, Nat.le_trans (h.count_le 10) ht.2⟩

theorem size_strip {a b : Nat} {s : Str} (h : Size a b s) : Size a b (strip s) := by
  refine size_sub h ?_
  unfold strip rstrip lstrip
  refine List.Sublist.trans ?_ (List.dropWhile_sublist isSpace)
  rw [← List.reverse_sublist, List.reverse_reverse]
  exact List.dropWhile_sublist _

theorem size_slice {a b : Nat} {s : Str} (h : Size a b s) (i j : Nat) : Size a b (slice s i j) :=
  size_sub h ((List.drop_sublist _ _).trans (List.take_sublist _ _))

theorem size_sliceFrom {a b : Nat} {s : Str} (h : Size a b s) (i : Nat) : Size a b (sliceFrom s i) :=
  size_sub h (List.drop_sublist _ _)

theorem size_lstripZeros {a b : Nat} {s : Str} (h : Size a b s) : Size a b (lstripZeros s) :=
  size_sub h (List.dropWhile_sublist _)

theorem size_index {a b : Nat} {s t : Str} {i : Nat} (ht : index s i = .ok t) (h : Size a b s) : Size 1 b t := by
  unfold index at ht
  split at ht
  · next c hc =>
    cases ht
    refine ⟨Nat.le_refl _, Nat.le_trans ?_ h.2⟩
    exact (List.singleton_sublist.2 (List.mem_of_getElem? hc)).count_le 10
  · cases ht

theorem digits_no_lf {s : Str} (h : ∀ c ∈ s, 48 ≤ c ∧ c ≤ 57) : s.count 10 = 0 :=
  List.count_eq_zero.2 fun hm => by have := h 10 hm; omega

theorem size_natStr {n k : Nat} (hk : 0 < k) (h : n < 10 ^ k) : Size k 0 (natStr n) :=
  ⟨decimal_length_lt (natStr_decimal n) hk h, Nat.le_of_eq (digits_no_lf (natStr_decimal n).1.2.1)⟩

theorem size_zfill {a n : Nat} {s : Str} (h : Size a 0 s) (ha : n ≤ a) : Size a 0 (zfill n s) := by
  obtain ⟨h1, h2⟩ := h
  unfold zfill
  refine ⟨by rw [List.length_append, List.length_replicate]; omega, ?_⟩
  rw [List.count_append, List.count_replicate]
  simpa using h2

theorem size_cons {a c : Nat} {s : Str} (h : Size a 0 s) (hc : c ≠ 10) : Size (1 + a) 0 (c :: s) := by
  obtain ⟨h1, h2⟩ := h
  exact ⟨by rw [List.length_cons]; omega, by rw [List.count_cons_of_ne (by simpa using hc)]; exact h2⟩

theorem size_intStr {i : Int} {k : Nat} (hk : 0 < k) (h : i.natAbs < 10 ^ k) : Size (1 + k) 0 (intStr i) := by
  unfold intStr
  split
  · exact size_cons (size_natStr hk h) (by decide)
  · exact size_mono (size_natStr hk h) (by omega) (by omega)

theorem size_fmt03 {i : Int} {k : Nat} (hk : 3 ≤ k) (h : i.natAbs < 10 ^ k) : Size (1 + k) 0 (fmt03 i) := by
  unfold fmt03
  split
  · exact size_cons (size_zfill (size_natStr (by omega) h) (by omega)) (by decide)
  · exact size_mono (size_zfill (size_natStr (by omega) h) (by omega)) (by omega) (by omega)

section
variable [PyUnicode]

omit [PyUnicode] in
theorem digitsVal_lt {s : Str} (h : s.all isDigit = true) : digitsVal s < 10 ^ s.length := by
  rw [digitsVal_eq]
  refine digitSum_lt fun c hc => ?_
  have := List.all_eq_true.1 h c hc
  simpa [isDigit] using this

omit [PyUnicode] in
theorem dropUnderscores_length {s t : Str} {p : Nat} (h : dropUnderscores p s = some t) : t.length ≤ s.length := by
  induction s generalizing p t with
  | nil =>
    unfold dropUnderscores at h
    split at h
    · cases h
    · cases h; exact Nat.le_refl _
  | cons c s ih =>
    unfold dropUnderscores at h
    split at h
    · split at h
      · have := ih h; rw [List.length_cons]; omega
      · cases h
    · split at h
      · cases h
      · obtain ⟨u, hu, rfl⟩ := Option.map_eq_some_iff.1 h
        have := ih hu
        rw [List.length_cons, List.length_cons]; omega

omit [PyUnicode] in
theorem takeSign_length (s : Str) : (takeSign s).2.length ≤ s.length := by
  unfold takeSign
  split <;> simp

omit [PyUnicode] in
theorem cStrip_length (s : Str) : (cStrip s).length ≤ s.length := by
  unfold cStrip
  rw [List.length_reverse]
  refine Nat.le_trans (List.dropWhile_sublist _).length_le ?_
  rw [List.length_reverse]
  exact (List.dropWhile_sublist _).length_le

/-- a number has not more digits than its text has characters -/
theorem pyInt_lt {s : Str} {i : Int} (h : pyInt s = .ok i) {k : Nat} (hk : s.length ≤ k) : i.natAbs < 10 ^ k := by
  unfold pyInt at h
  simp only at h
  split at h
  · cases h
  · next ds hds =>
    split at h
    · next hc =>
      simp only [Bool.and_eq_true] at hc
      have h1 := digitsVal_lt hc.1.2
      have h2 := dropUnderscores_length hds
      have h3 := takeSign_length (cStrip (s.map toAscii))
      have h4 := cStrip_length (s.map toAscii)
      rw [List.length_map] at h4
      have h5 : 10 ^ ds.length ≤ 10 ^ k := Nat.pow_le_pow_right (by omega) (by omega)
      cases h
      split <;> omega
    · cases h

omit [PyUnicode] in
theorem divNat_encoded {x : Dbl} {d : ℕ} (hd : 0 < d) : Encoded (x.divNat d) := quotient_encoded ((divNat_iff hd).1 rfl)

omit [PyUnicode] in
theorem size_fmt {x : Dbl} {d : ℕ} (hx : Encoded x) (hd : 0 < d) (h2 : d ≤ 2) : Size 314 0 (x.fmt d) := by
  unfold Dbl.fmt
  split
  · exact size_mono (size_lit _) (by decide) (by decide)
  · split <;> exact size_mono (size_lit _) (by decide) (by decide)
  · next neg m e =>
    obtain ⟨hm, he, he', hn⟩ := hx
    obtain ⟨hv, hden⟩ := dblFrac_val m e
    have hlt := double_lt hm he'
    have hr := (rne_near (a := (dblFrac m e).1 * 10 ^ d) hden).1
    generalize rne ((dblFrac m e).1 * 10 ^ d) (dblFrac m e).2 = n at hr
    have h1 : n / 10 ^ d < 10 ^ 310 := by
      rw [Nat.div_lt_iff_lt_mul (Nat.pow_pos (by omega))]
      have h3 := (abs_le.1 hr).2
      have h4 : (((dblFrac m e).1 * 10 ^ d : ℕ) : ℚ) / (dblFrac m e).2 = m * 2 ^ e * 10 ^ d := by
        push_cast; rw [← hv]; ring
      rw [h4] at h3
      have h5 : (n : ℚ) < 10 ^ (310 : ℤ) * 10 ^ d := by
        have e1 : (10 : ℚ) ^ (310 : ℤ) = 10 ^ (309 : ℤ) * 10 := by
          rw [show (310 : ℤ) = 309 + 1 from rfl, zpow_add₀ (by norm_num), zpow_one]
        have hT : (1 : ℚ) ≤ 10 ^ (309 : ℤ) := one_le_zpow₀ (by norm_num) (by norm_num)
        rw [e1]
        generalize (10 : ℚ) ^ (309 : ℤ) = T at hlt hT ⊢
        have h6 : (1 : ℚ) ≤ 10 ^ d := one_le_pow₀ (by norm_num)
        have h7 : (m : ℚ) * 2 ^ e * 10 ^ d ≤ T * 10 ^ d := by gcongr
        have h8 : (1 : ℚ) ≤ T * 10 ^ d := one_le_mul_of_one_le_of_one_le hT h6
        linarith
      rw [zpow_ofNat] at h5
      exact_mod_cast h5
    have a := size_natStr (k := 310) (by norm_num) h1
    have b : Size d 0 (zfill d (natStr (n % 10 ^ d))) :=
      size_zfill (size_natStr hd (Nat.mod_lt _ (Nat.pow_pos (by omega)))) (Nat.le_refl _)
    have c : Size 1 0 (if neg = true then [45] else []) := by cases neg <;> exact ⟨by decide, by decide⟩
    exact size_mono (size_append (size_append (size_append c a) (size_lit [46])) b) (by simp; omega) (by simp)

omit [PyUnicode] in
/-- the texts of a table are short and without line feeds -/
def ShortTable (t : List (Str × Str)) : Prop := t.all (fun p => p.2.length ≤ 87 && p.2.count 10 ≤ 0) = true

omit [PyUnicode] in
theorem size_lookup {t : List (Str × Str)} (ht : ShortTable t) {k s : Str} (h : t.lookup k = some s) : Size 87 0 s := by
  induction t with
  | nil => cases h
  | cons p t ih =>
    simp only [ShortTable, List.all_cons, Bool.and_eq_true, decide_eq_true_eq] at ht
    rw [List.lookup_cons] at h
    split at h
    · cases h; exact ht.1
    · exact ih (by unfold ShortTable; simpa using ht.2) h

omit [PyUnicode] in
theorem size_lookupD {t : List (Str × Str)} (ht : ShortTable t) (k : Str) : Size 87 0 (lookupD t k) := by
  unfold lookupD
  split
  · next h => exact size_lookup ht h
  · exact ⟨by decide, by decide⟩

omit [PyUnicode] in
theorem size_writeCase {t : List (Str × Str)} (ht : ShortTable t) (k : Str) : Size 88 1 (writeCase t k) := by
  unfold writeCase
  split
  · next h => exact size_append (size_lookup ht h) (size_lit [10])
  · exact ⟨by decide, by decide⟩

omit [PyUnicode] in
theorem size_legs {legs : Legs} (hl : Grown legs) {k s : Str} (h : legs.lookup k = some s) : Size 87 0 s := by
  have ht : ShortTable legs := by
    unfold ShortTable
    obtain ⟨e, rfl, he⟩ := hl
    rw [List.all_append, Bool.and_eq_true]
    refine ⟨by decide +kernel, List.all_eq_true.2 fun p hp => ?_⟩
    rw [(he p hp).2]; decide
  exact size_lookup ht h

omit [PyUnicode] in
theorem short_routeTypes (ident : Str) : ShortTable (routeTypes ident) := by
  unfold ShortTable routeTypes
  repeat' split
  all_goals decide +kernel

theorem short_t003 : ShortTable t003 := by unfold ShortTable; decide +kernel
theorem short_t004 : ShortTable t004 := by unfold ShortTable; decide +kernel
theorem short_t017_0 : ShortTable t017_0 := by unfold ShortTable; decide +kernel
theorem short_t017_1 : ShortTable t017_1 := by unfold ShortTable; decide +kernel
theorem short_t017_2 : ShortTable t017_2 := by unfold ShortTable; decide +kernel
theorem short_t017_3 : ShortTable t017_3 := by unfold ShortTable; decide +kernel
theorem short_t042_0 : ShortTable t042_0 := by unfold ShortTable; decide +kernel
theorem short_t042_1 : ShortTable t042_1 := by unfold ShortTable; decide +kernel
theorem short_t091 : ShortTable t091 := by unfold ShortTable; decide +kernel
theorem short_t101 : ShortTable t101 := by unfold ShortTable; decide +kernel
theorem short_t104 : ShortTable t104 := by unfold ShortTable; decide +kernel
theorem short_t106 : ShortTable t106 := by unfold ShortTable; decide +kernel
theorem short_t181 : ShortTable t181 := by unfold ShortTable; decide +kernel
theorem short_t196_0 : ShortTable t196_0 := by unfold ShortTable; decide +kernel
theorem short_t196_1 : ShortTable t196_1 := by unfold ShortTable; decide +kernel
theorem short_t198 : ShortTable t198 := by unfold ShortTable; decide +kernel
theorem short_t199 : ShortTable t199 := by unfold ShortTable; decide +kernel

/-- the text of a value that is a text -/
def ValSize : PyVal → Prop
  | .str s => Size 352 4 s
  | _ => True

/-- the value, if there is one -/
def ResSize (r : Except Exc PyVal) : Prop := ∀ y, r = .ok y → ValSize y

omit [PyUnicode] in
theorem ressize_ret {s : Str} (h : Size 352 4 s) : ResSize (ret s) := by
  intro y hy; cases hy; exact h

omit [PyUnicode] in
theorem ressize_error {e : Exc} : ResSize (.error e) := by intro y hy; cases hy

omit [PyUnicode] in
theorem ressize_none : ResSize (.ok .none) := by intro y hy; cases hy; trivial

omit [PyUnicode] in
theorem ressize_float {x : Dbl} : ResSize (.ok (.float x)) := by intro y hy; cases hy; trivial

omit [PyUnicode] in
theorem ressize_bind {α : Type} {a : Except Exc α} {f : α → Except Exc PyVal}
    (h : ∀ x, a = .ok x → ResSize (f x)) : ResSize (a >>= f) := by
  cases a with
  | error e => exact ressize_error
  | ok x => exact h x rfl

/-- the texts built by the decoders -/
local macro "sz" : tactic => `(tactic| repeat' first
  | assumption
  | with_reducible apply size_append
  | with_reducible apply size_strip
  | with_reducible apply size_slice
  | with_reducible apply size_sliceFrom
  | with_reducible apply size_lstripZeros
  | exact size_index ‹_› ‹_›
  | exact size_index ‹_› (size_strip ‹_›)
  | with_reducible exact size_lookup short_t003 ‹_›
  | with_reducible exact size_lookup short_t042_0 ‹_›
  | with_reducible exact size_lookup short_t042_1 ‹_›
  | with_reducible exact size_lookup short_t091 ‹_›
  | with_reducible exact size_lookup short_t196_0 ‹_›
  | with_reducible exact size_lookup short_t196_1 ‹_›
  | with_reducible exact size_lookupD short_t004 _
  | with_reducible exact size_lookupD short_t101 _
  | with_reducible exact size_lookupD short_t104 _
  | with_reducible exact size_lookupD short_t106 _
  | with_reducible exact size_lookupD short_t181 _
  | with_reducible exact size_lookupD short_t198 _
  | with_reducible exact size_lookupD short_t199 _
  | with_reducible exact size_writeCase short_t017_0 _
  | with_reducible exact size_writeCase short_t017_1 _
  | with_reducible exact size_writeCase short_t017_2 _
  | with_reducible exact size_writeCase short_t017_3 _
  | with_reducible exact size_lookupD (short_routeTypes _) _
  | exact size_legs ‹_› ‹_›
  | with_reducible exact size_fmt (divNat_encoded (by norm_num)) (by norm_num) (by norm_num)
  | with_reducible exact size_lit _)

/-- the results of the decoders -/
local macro "ressize" : tactic => `(tactic| repeat' first
  | exact ressize_error
  | exact ressize_none
  | exact ressize_float
  | refine ressize_ret ?_
  | split
  | refine ressize_bind fun x hx => ?_)

set_option maxHeartbeats 1000000 in
theorem field_size {v : Str} (hv : Size 132 0 v) {rec : RecInfo} {legs : Legs}
    (fn : DecFn) (h1 : fn ≠ .f021) (h2 : fn ≠ .f034) (h3 : fn ≠ .f065) (h4 : fn ≠ .f118) (h5 : fn ≠ .f039)
    (h6 : fn ≠ .f178) : ResSize (runDec fn v rec legs).res := by
  cases fn
  case f021 => exact absurd rfl h1
  case f034 => exact absurd rfl h2
  case f065 => exact absurd rfl h3
  case f118 => exact absurd rfl h4
  case f039 => exact absurd rfl h5
  case f178 => exact absurd rfl h6
  case ident n =>
    unfold runDec
    simp only
    split
    · exact ressize_ret (size_mono hv (by decide) (by decide))
    · exact ressize_error
  all_goals simp only [runDec, quiet]
  all_goals simp only [field_002, field_003, field_004, field_007, field_008, field_009, field_010, field_012, field_016,
    field_017, field_020, field_022, field_023, field_024, field_025, field_026, field_027, field_029, field_030,
    field_032, field_042, field_043, field_045, field_048, field_049, field_050, field_053, field_054,
    field_062, field_072, field_073, field_082, field_086, field_091, field_092, field_101, field_102, field_103,
    field_104, field_106, field_108, field_112, field_113, field_117, field_123, field_127, field_135, field_147,
    field_161, field_165, field_177, field_179, field_181, field_182, field_184, field_196, field_198,
    field_199, field_209, field_240, field_269, field_270, feet, dictCase, unsupported]
  all_goals ressize
  all_goals repeat' split
  all_goals (apply size_mono; (focus (sz; done)); all_goals decide)

/-- how much a message shows -/
def NoteSize : Event → Prop
  | .line s => s.length ≤ 400
  | .legTime v e => v.length ≤ 132 ∧ match e with
    | .notInt s => s.length ≤ 1
    | .tooShort => True
  | _ => False

/-- how much a table shows -/
def RowsSize (rows : List Row) : Prop :=
  rows.length ≤ 43 ∧ ∀ r ∈ rows, Size 42 0 r.field ∧ Size 102 0 r.value ∧ ∀ s, r.decoded.text = some s → Size 352 4 s

theorem runDec_size {v : Str} (hv : Size 132 0 v) {rec : RecInfo} (hi : rec.ident.length ≤ 132)
    (hr : rec.raw.length ≤ 132) {legs : Legs} (hl : Grown legs) (fn : DecFn) :
    ResSize (runDec fn v rec legs).res ∧ (runDec fn v rec legs).out.length ≤ 2 ∧
      ∀ e ∈ (runDec fn v rec legs).out, NoteSize e := by
  have hs := size_strip hv
  by_cases h1 : fn = .f021
  · subst h1
    simp only [runDec, field_021]
    split
    · exact ⟨ressize_ret (size_mono hs (by decide) (by decide)), by simp, fun e he => by cases he⟩
    · split
      · exact ⟨ressize_error, by simp, fun e he => by cases he⟩
      · split
        · next h => exact ⟨ressize_ret (size_mono (size_legs hl h) (by decide) (by decide)), by simp, fun e he => by cases he⟩
        · exact ⟨ressize_ret ⟨by decide, by decide⟩, by simp, fun e he => by cases he⟩
  by_cases h2 : fn = .f034
  · subst h2
    simp only [runDec, field_034, noisy]
    split
    · split
      · refine ⟨ressize_error, by simp, fun e he => ?_⟩
        have := hs.1
        simp only [List.mem_cons, List.not_mem_nil, or_false] at he
        rcases he with rfl | rfl <;> simp only [NoteSize, List.length_append, List.length_cons, List.length_nil] <;> omega
      · refine ⟨ressize_bind fun x hx => ressize_ret ?_, by simp, fun e he => by cases he⟩
        exact size_mono (size_fmt (divNat_encoded (by norm_num)) (by norm_num) (by norm_num)) (by decide) (by decide)
    · exact ⟨ressize_ret (size_mono hs (by decide) (by decide)), by simp, fun e he => by cases he⟩
  by_cases h3 : fn = .f065
  · subst h3
    simp only [runDec, field_065, noisy]
    split
    · exact ⟨ressize_none, by simp, fun e he => by cases he⟩
    · split
      · next s h =>
        refine ⟨ressize_ret ?_, by simp, fun e he => by cases he⟩
        unfold legTime at h
        split at h
        · cases h
        · next v0 hv0 =>
          split at h
          · cases h
          · next m hm =>
            split at h
            · cases h
            · next v1 hv1 =>
              split at h
              · cases h
              · next t ht =>
                cases h
                have a := pyInt_lt hm (size_index hv0 hv).1
                have b := pyInt_lt ht (size_index hv1 hv).1
                have c : (t * 6).natAbs < 10 ^ 2 := by omega
                exact size_mono (size_append (size_append (size_append (size_intStr (by decide) a) (size_lit _))
                  (size_intStr (by decide) c)) (size_lit _)) (by decide) (by decide)
      · next e' h =>
        refine ⟨ressize_ret (size_mono (size_append (size_append (size_lit _) hv) (size_lit _)) (by decide) (by decide)),
          by simp, fun e he => ?_⟩
        simp only [List.mem_cons, List.not_mem_nil, or_false] at he
        subst he
        refine ⟨hv.1, ?_⟩
        unfold legTime at h
        repeat' split at h
        all_goals cases h
        all_goals simp only
        all_goals exact (size_index ‹_› hv).1
  by_cases h4 : fn = .f118
  · subst h4
    simp only [runDec, field_118, noisy]
    split
    · exact ⟨ressize_error, by simp, fun e he => by cases he⟩
    · split
      · refine ⟨ressize_ret (size_mono (size_append (size_append (size_lit _) hv) (size_lit _)) (by decide) (by decide)),
          by simp, fun e he => ?_⟩
        have := hv.1
        simp only [List.mem_cons, List.not_mem_nil, or_false] at he
        subst he
        simp only [NoteSize, List.length_append, List.length_cons, List.length_nil]
        omega
      · next s h =>
        have : Size 100 0 s := by
          unfold boundaryVia at h
          repeat' split at h
          all_goals cases h
          all_goals exact ⟨by decide, by decide⟩
        split
        · exact ⟨ressize_error, by simp, fun e he => by cases he⟩
        · split
          · exact ⟨ressize_ret (size_mono (size_append this (size_lit _)) (by decide) (by decide)), by simp,
              fun e he => by cases he⟩
          · exact ⟨ressize_ret (size_mono this (by decide) (by decide)), by simp, fun e he => by cases he⟩
  by_cases h5 : fn = .f039
  · subst h5
    simp only [runDec, quiet, field_039]
    refine ⟨?_, by simp, fun e he => by cases he⟩
    split
    · exact ressize_ret (size_mono hv (by decide) (by decide))
    · refine ressize_bind fun i hi => ressize_bind fun v0 h0 => ressize_ret ?_
      have a := pyInt_lt hi (size_sliceFrom hv 1).1
      exact size_mono (size_append (size_append (size_fmt03 (by norm_num) a) (size_lit _)) (size_index h0 hv))
        (by decide) (by decide)
  by_cases h6 : fn = .f178
  · subst h6
    simp only [runDec, quiet, field_178]
    refine ⟨?_, by simp, fun e he => by cases he⟩
    refine ressize_bind fun v0 h0 => ?_
    split
    · refine ressize_bind fun i hi => ressize_ret ?_
      have hb : (i - 12).natAbs < 10 ^ 2 := by
        unfold upperIndex at hi
        split at hi
        · split at hi
          · cases hi; omega
          · cases hi
        · cases hi
      have a : Size 8 0 (if i - 12 ≥ 0 then py!"GMT +" ++ intStr (i - 12) else py!"GMT -" ++ intStr (i - 12)) := by
        split <;> exact size_mono (size_append (size_lit _) (size_intStr (by decide) hb)) (by decide) (by decide)
      exact size_mono (size_append (size_append a (size_lit _)) (size_sliceFrom hv 1)) (by decide) (by decide)
    · exact ressize_ret (size_mono (size_append (size_append (size_lit _) hv) (size_lit _)) (by decide) (by decide))
  have h := field_size hv fn h1 h2 h3 h4 h5 h6 (rec := rec) (legs := legs)
  obtain ⟨_, b⟩ := field_over (P := fun _ => True) (fun _ _ => trivial) (v := v) (fun _ _ => trivial) fn h1 h2 h3 h4
    (rec := rec) (legs := legs)
  exact ⟨h, by rw [b]; simp, by rw [b]; intro e he; cases he⟩

end
end Arinc
