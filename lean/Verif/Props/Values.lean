import Verif.Lemmas.Value
import Verif.Props.Samples
/-!
# C41 - C48, C60: numbers

What a numeric field shows, for every raw value. `Numeral`, `Decimal`, `Fixed`, `Shows` are defined in
`Spec/Value.lean`.
-/
namespace Arinc
open Py Spec

section
variable [PyUnicode]

/-! ## C41 altitudes -/

/-- C41 (the condition `n ≠ 0` cannot be dropped, see `C41_refuted`): a positive number is shown as the
    same number, in feet. -/
theorem C41_feet_partial {fn : DecFn} (hf : fn ∈ feetFields) {v : Str} {n : Nat} (hv : Numeral v n)
    (hn : n ≠ 0) : ∃ d, Decimal d n ∧ Shows fn v (d ++ py!" ft") := by
  refine ⟨lstripZeros v, lstripZeros_decimal hv hn, fun rec legs => ?_⟩
  have key : feet v = ret (lstripZeros v ++ py!" ft") := by
    unfold feet; rw [if_pos (isNumeric_digits (numeral_digits hv))]
  simp only [feetFields, List.mem_cons, List.not_mem_nil, or_false] at hf
  rcases hf with rfl | rfl | rfl | rfl | rfl | rfl | rfl | rfl | rfl | rfl | rfl | rfl | rfl | rfl | rfl <;>
    exact congrArg (quiet legs) key

/-- C41: a value that is not a number (of ASCII characters, not only digits, or empty) is shown as it is. -/
theorem C41_text {fn : DecFn} (hf : fn ∈ feetFields) {v : Str} (ha : Ascii v)
    (hv : ¬ ∃ n, Numeral v n) : Shows fn v v := by
  have hnum : isNumeric v = false := by
    cases h : isNumeric v with
    | false => rfl
    | true =>
      have hd := (numeric_ascii_digits ha).1 h
      exact absurd ⟨_, hd.1, fun c hc => isDigit_iff.1 (hd.2 c hc), rfl⟩ hv
  intro rec legs
  have key : feet v = ret v := by unfold feet; rw [hnum]; rfl
  simp only [feetFields, List.mem_cons, List.not_mem_nil, or_false] at hf
  rcases hf with rfl | rfl | rfl | rfl | rfl | rfl | rfl | rfl | rfl | rfl | rfl | rfl | rfl | rfl | rfl <;>
    exact congrArg (quiet legs) key

/-- C41 is false of zero, for every field of the family and however zero is written: an elevation of
    0 feet is shown as `' ft'`. -/
theorem C41_refuted {fn : DecFn} (hf : fn ∈ feetFields) {v : Str} (hv : Numeral v 0) :
    Shows fn v (py!" ft") ∧ ¬ ∃ d, Decimal d 0 ∧ Shows fn v (d ++ py!" ft") := by
  have key : feet v = ret (py!" ft") := by
    unfold feet
    rw [if_pos (isNumeric_digits (numeral_digits hv)), lstripZeros_zero (numeral_zero hv)]; rfl
  have hs : Shows fn v (py!" ft") := by
    intro rec legs
    simp only [feetFields, List.mem_cons, List.not_mem_nil, or_false] at hf
    rcases hf with rfl | rfl | rfl | rfl | rfl | rfl | rfl | rfl | rfl | rfl | rfl | rfl | rfl | rfl | rfl <;>
      exact congrArg (quiet legs) key
  refine ⟨hs, ?_⟩
  rintro ⟨d, hd, h⟩
  have e := (h ⟨[], []⟩ []).symm.trans (hs ⟨[], []⟩ [])
  injection e with e1
  injection e1 with e1
  injection e1 with e1
  exact hd.1.1 (List.append_left_eq_self.1 e1)

/-! ## C42 longest runway -/

/-- C42 (again except for zero): hundreds of feet are shown in feet. -/
theorem C42_runway_partial {v : Str} {n : Nat} (hv : Numeral v n) (hn : n ≠ 0) :
    ∃ d, Decimal d (100 * n) ∧ Shows .f054 v (d ++ py!" ft") := by
  refine ⟨lstripZeros v ++ py!"00", ?_, fun rec legs => ?_⟩
  · obtain ⟨⟨h1, h2, h3⟩, h4⟩ := lstripZeros_decimal hv hn
    refine ⟨⟨by simp, ?_, ?_⟩, ?_⟩
    · intro c hc
      rcases List.mem_append.1 hc with hc | hc
      · exact h2 c hc
      · simp at hc; omega
    · rw [digitSum_append, h3]; simp [digitSum]; omega
    · intro hh
      cases hl : lstripZeros v with
      | nil => exact absurd hl h1
      | cons c s =>
        rw [hl] at hh h3 h4
        simp only [List.cons_append, List.head?_cons, Option.some.injEq] at hh
        subst hh
        rw [h4 rfl] at h3
        simp [digitSum] at h3
        exact absurd h3.symm hn
  · have : field_054 v = ret (lstripZeros v ++ py!"00" ++ py!" ft") := by
      unfold field_054; rw [if_pos (isNumeric_digits (numeral_digits hv))]
    exact congrArg (quiet legs) this

/-- C42: zero is shown as `'00 ft'`. -/
theorem C42_zero {v : Str} (hv : Numeral v 0) : Shows .f054 v (py!"00 ft") := by
  intro rec legs
  have : field_054 v = ret (py!"00 ft") := by
    unfold field_054
    rw [if_pos (isNumeric_digits (numeral_digits hv)), lstripZeros_zero (numeral_zero hv)]; rfl
  exact congrArg (quiet legs) this

/-- C42: anything else is shown as it is. -/
theorem C42_text {v : Str} (ha : Ascii v) (hv : ¬ ∃ n, Numeral v n) : Shows .f054 v v := by
  have hnum : isNumeric v = false := by
    cases h : isNumeric v with
    | false => rfl
    | true =>
      have hd := (numeric_ascii_digits ha).1 h
      exact absurd ⟨_, hd.1, fun c hc => isDigit_iff.1 (hd.2 c hc), rfl⟩ hv
  intro rec legs
  have key : field_054 v = ret v := by unfold field_054; rw [hnum]; rfl
  exact congrArg (quiet legs) key

/-! ## C44 frequencies -/

/-- C44: a frequency of up to 15 digits is shown as the exact number of hundredths. -/
theorem C44_exact {fn : DecFn} (hf : fn ∈ frequencyFields) {v : Str} {n : Nat} (hv : Numeral v n)
    (hl : v.length ≤ 15) : ∃ s, Fixed 2 s n ∧ Shows fn v s := by
  have hd := numeral_digits hv
  have hfl : pyFloat v = .ok (roundDbl false n 1) := by rw [pyFloat_digits hd, numeral_val hv]
  have hfix : Fixed 2 (((roundDbl false n 1).divNat 100).fmt 2) n :=
    fmt_div (d := 2) (numeral_lt15 hv hl) (by omega) (by decide)
  refine ⟨_, hfix, fun rec legs => ?_⟩
  simp only [frequencyFields, List.mem_cons, List.not_mem_nil, or_false] at hf
  rcases hf with rfl | rfl | rfl
  · have : field_034 v rec.ident rec.raw = (ret (((roundDbl false n 1).divNat 100).fmt 2), []) := by
      unfold field_034
      simp only [strip_digits hd.2]
      rw [if_pos (List.length_pos_iff.2 hd.1), if_neg (by rw [isNumeric_digits hd]; simp), hfl]
      rfl
    exact congrArg (noisy legs) this
  · have : field_045 v = ret (((roundDbl false n 1).divNat 100).fmt 2) := by
      unfold field_045; rw [if_pos (isNumeric_digits hd), hfl]; rfl
    exact congrArg (quiet legs) this
  · have : field_103 v = ret (((roundDbl false n 1).divNat 100).fmt 2) := by
      unfold field_103; rw [if_pos (isNumeric_digits hd), hfl]; rfl
    exact congrArg (quiet legs) this

/-- C44: hence in every accepted record every frequency that is a number is shown exactly. -/
theorem C44_records {r : Record} {line : Str} (hr : (r.read line).res = .ok true) {f : Field}
    (hf : f ∈ (r.read line).obj.fields) (hfn : f.dec ∈ frequencyFields) {n : Nat}
    (hv : Numeral f.value n) : ∃ s, Fixed 2 s n ∧ Shows f.dec f.value s := by
  obtain ⟨k, d, l, ha⟩ := accepted hr
  obtain ⟨s, hs, _, hdec, hlen⟩ := accepted_width ha hf
  apply C44_exact hfn hv
  have h := List.all_eq_true.1 (List.all_eq_true.1 (List.all_eq_true.1 freq_widths _ (lookup_mem ha.lookup)) _ ha.mem) _ hs
  rw [← hdec, List.contains_iff_mem.2 hfn] at h
  simp only [Bool.not_true, Bool.false_or, decide_eq_true_eq] at h
  omega

/-! ## C45 courses and distances -/

/-- C45: a course of up to four digits is shown as the exact number of tenths. -/
theorem C45_course {v : Str} {n : Nat} (hv : Numeral (strip v) n) (hl : (strip v).length ≤ 4) :
    ∃ s, Fixed 1 s n ∧ Shows .f026 v s := by
  have hd := numeral_digits hv
  have hfl : pyFloat (strip v) = .ok (roundDbl false n 1) := by rw [pyFloat_digits hd, numeral_val hv]
  have hfix : Fixed 1 (((roundDbl false n 1).divNat 10).fmt 1) n :=
    fmt_div (d := 1) (numeral_lt15 hv (by omega)) (by omega) (by decide)
  refine ⟨_, hfix, fun rec legs => ?_⟩
  have halnum : isAlnum (strip v) = true := by
    have hnum := isNumeric_digits hd
    simp only [isNumeric, isAlnum, Bool.and_eq_true, List.all_eq_true] at hnum ⊢
    exact ⟨hnum.1, fun c hc => by rw [hnum.2 c hc]; simp⟩
  have hT : endsWithChar (strip v) 84 = false := by
    unfold endsWithChar
    rw [beq_eq_false_iff_ne]
    intro h
    have := isDigit_iff.1 (hd.2 84 (List.mem_of_getLast? h))
    omega
  have : field_026 v = ret (((roundDbl false n 1).divNat 10).fmt 1) := by
    unfold field_026
    simp only
    rw [if_neg (by rw [List.length_eq_zero_iff]; exact hd.1),
      if_neg (by rw [halnum]; simp; omega), if_neg (by rw [hT]; simp), hfl]
    rfl
  exact congrArg (quiet legs) this

/-- C45: a course in degrees true (trailing T) is shown as it is. -/
theorem C45_course_true {v w : Str} (hv : strip v = w ++ [84]) (hw : ∀ c ∈ w, 48 ≤ c ∧ c ≤ 57)
    (hl : w.length ≤ 3) : Shows .f026 v (w ++ [84]) := by
  intro rec legs
  have halnum : isAlnum (strip v) = true := by
    rw [hv]
    simp only [isAlnum, Bool.and_eq_true, List.all_eq_true, Bool.not_eq_true', List.isEmpty_eq_false_iff,
      Bool.or_eq_true]
    refine ⟨by simp, fun c hc => ?_⟩
    rcases List.mem_append.1 hc with hc | hc
    · right
      have := hw c hc
      rw [PyUnicode.numeric_ascii c (by omega)]; simp; omega
    · left
      simp only [List.mem_singleton] at hc
      subst hc
      rw [PyUnicode.alpha_ascii 84 (by omega)]; rfl
  have : field_026 v = ret (w ++ [84]) := by
    unfold field_026
    simp only
    rw [if_neg (by rw [hv]; simp), if_neg (by rw [halnum, hv]; simp; omega),
      if_pos (by rw [hv]; simp [endsWithChar]), hv]
  exact congrArg (quiet legs) this

/-- C45: a distance of up to 15 digits is shown as the exact number of tenths, in nautical miles. -/
theorem C45_distance {v : Str} {n : Nat} (hv : Numeral (strip v) n) (hl : (strip v).length ≤ 15) :
    ∃ s, Fixed 1 s n ∧ Shows .f027 v (s ++ py!" nm") := by
  have hd := numeral_digits hv
  have hfl : pyFloat (strip v) = .ok (roundDbl false n 1) := by rw [pyFloat_digits hd, numeral_val hv]
  have hfix : Fixed 1 (((roundDbl false n 1).divNat 10).fmt 1) n :=
    fmt_div (d := 1) (numeral_lt15 hv hl) (by omega) (by decide)
  refine ⟨_, hfix, fun rec legs => ?_⟩
  have : field_027 v = ret (((roundDbl false n 1).divNat 10).fmt 1 ++ py!" nm") := by
    unfold field_027
    simp only
    rw [if_pos (List.length_pos_iff.2 hd.1)]
    obtain ⟨c, s, hcs⟩ := List.exists_cons_of_ne_nil hd.1
    have hi : index (strip v) 0 = .ok [c] := by rw [hcs]; rfl
    have hc : ¬ [c] = py!"T" := by
      intro h
      have h84 : c = 84 := List.cons.inj h |>.1
      have := isDigit_iff.1 (hd.2 c (by rw [hcs]; simp))
      omega
    rw [hi]
    simp only [bind, Except.bind]
    rw [if_neg hc, hfl]
  exact congrArg (quiet legs) this

/-- C45: after a leading T it is a time, in minutes. -/
theorem C45_time {v w : Str} {n : Nat} (hv : strip v = 84 :: w) (hw : Numeral w n) (hl : w.length ≤ 15) :
    ∃ s, Fixed 1 s n ∧ Shows .f027 v (s ++ py!" min") := by
  have hd := numeral_digits hw
  have hfl : pyFloat w = .ok (roundDbl false n 1) := by rw [pyFloat_digits hd, numeral_val hw]
  have hfix : Fixed 1 (((roundDbl false n 1).divNat 10).fmt 1) n :=
    fmt_div (d := 1) (numeral_lt15 hw hl) (by omega) (by decide)
  refine ⟨_, hfix, fun rec legs => ?_⟩
  have : field_027 v = ret (((roundDbl false n 1).divNat 10).fmt 1 ++ py!" min") := by
    unfold field_027
    simp only
    rw [hv, if_pos (by simp), index_cons_zero]
    simp only [bind, Except.bind]
    rw [if_pos trivial]
    simp only [sliceFrom, List.drop_succ_cons, List.drop_zero]
    rw [hfl]
  exact congrArg (quiet legs) this

/-- C45: blanks are shown as nothing. -/
theorem C45_blank {v : Str} (hv : AllSpace v) : Shows .f026 v [] ∧ Shows .f027 v [] := by
  have h0 := strip_nil_iff.2 hv
  constructor
  · intro rec legs
    have : field_026 v = ret [] := by unfold field_026; simp only [h0]; rfl
    exact congrArg (quiet legs) this
  · intro rec legs
    have : field_027 v = ret [] := by unfold field_027; simp only [h0]; rfl
    exact congrArg (quiet legs) this

/-! ## C43 cycle dates -/

/-- C43: the cycle date `yyrr` is shown as `YYYY, Release rr` with the year in 1951..2050. -/
theorem C43_year {v yy rr : Str} {y : Nat} (hv : v = yy ++ rr) (hy : Numeral yy y) (h2 : yy.length = 2) :
    ∃ Y d, 1951 ≤ Y ∧ Y ≤ 2050 ∧ Y % 100 = y ∧ Decimal d Y ∧
      Shows .f032 v (d ++ py!", Release " ++ rr) := by
  have hd := numeral_digits hy
  have hlt : y < 100 := numeral_lt hy (k := 2) (by omega)
  have hs : slice v 0 2 = yy := by
    unfold slice; rw [hv, ← h2]; simp
  have hr : sliceFrom v 2 = rr := by
    unfold sliceFrom; rw [hv, ← h2]; simp
  have hi : pyInt yy = .ok (y : Int) := by rw [pyInt_digits hd (by omega), numeral_val hy]
  have hdec : ∀ a b : Nat, 49 ≤ a → a ≤ 57 → 48 ≤ b → b ≤ 57 →
      Decimal (a :: b :: yy) (((a - 48) * 10 + (b - 48)) * 100 + y) := by
    intro a b ha ha' hb hb'
    refine ⟨⟨by simp, ?_, ?_⟩, ?_⟩
    · intro c hc
      simp only [List.mem_cons] at hc
      rcases hc with rfl | rfl | hc
      · omega
      · omega
      · exact hy.2.1 c hc
    · simp only [digitSum, List.length_cons, h2, hy.2.2]; omega
    · intro h; simp only [List.head?_cons, Option.some.injEq] at h; omega
  by_cases h50 : y > 50
  · refine ⟨1900 + y, 49 :: 57 :: yy, by omega, by omega, by omega, ?_, fun rec legs => ?_⟩
    · have := hdec 49 57 (by omega) (by omega) (by omega) (by omega)
      rwa [show ((49 - 48) * 10 + (57 - 48)) * 100 + y = 1900 + y by omega] at this
    · have : field_032 v = ret (49 :: 57 :: yy ++ py!", Release " ++ rr) := by
        unfold field_032
        rw [hs, hr, hi]
        simp only [bind, Except.bind]
        rw [if_pos (by omega)]; rfl
      exact congrArg (quiet legs) this
  · refine ⟨2000 + y, 50 :: 48 :: yy, by omega, by omega, by omega, ?_, fun rec legs => ?_⟩
    · have := hdec 50 48 (by omega) (by omega) (by omega) (by omega)
      rwa [show ((50 - 48) * 10 + (48 - 48)) * 100 + y = 2000 + y by omega] at this
    · have : field_032 v = ret (50 :: 48 :: yy ++ py!", Release " ++ rr) := by
        unfold field_032
        rw [hs, hr, hi]
        simp only [bind, Except.bind]
        rw [if_neg (by omega)]; rfl
      exact congrArg (quiet legs) this

/-- C43: two cycle dates shown alike are equal. -/
theorem C43_injective {v w s : Str} {m n : Nat} (hv : Numeral v m) (hw : Numeral w n) (lv : v.length = 4)
    (lw : w.length = 4) (sv : Shows .f032 v s) (sw : Shows .f032 w s) : v = w := by
  have split : ∀ {u : Str} {k : Nat}, Numeral u k → u.length = 4 →
      ∃ y, Numeral (u.take 2) y ∧ (u.take 2).length = 2 := by
    intro u k hu lu
    refine ⟨_, ⟨?_, fun c hc => hu.2.1 c (List.mem_of_mem_take hc), rfl⟩, by rw [List.length_take]; omega⟩
    intro h0
    have := congrArg List.length h0
    rw [List.length_take, List.length_nil] at this
    omega
  obtain ⟨y, hy, ly⟩ := split hv lv
  obtain ⟨z, hz, lz⟩ := split hw lw
  obtain ⟨Y, d, _, _, hY, hd, hs⟩ := C43_year (List.take_append_drop 2 v).symm hy ly
  obtain ⟨Z, e, _, _, hZ, he, ht⟩ := C43_year (List.take_append_drop 2 w).symm hz lz
  have inj : ∀ {u a b : Str}, Shows .f032 u a → Shows .f032 u b → a = b := by
    intro u a b ha hb
    have h := (ha ⟨[], []⟩ []).symm.trans (hb ⟨[], []⟩ [])
    injection h with h1
    injection h1 with h1
    injection h1
  have heq : d ++ py!", Release " ++ v.drop 2 = e ++ py!", Release " ++ w.drop 2 :=
    (inj hs sv).trans (inj sw ht)
  have hlen : d.length = e.length := by
    have := congrArg List.length heq
    simp only [List.length_append, List.length_drop, lv, lw] at this
    omega
  rw [List.append_assoc, List.append_assoc] at heq
  obtain ⟨h1, h2⟩ := List.append_inj heq hlen
  have h3 := List.append_cancel_left h2
  subst h1
  have hYZ : Y = Z := hd.1.2.2.symm.trans he.1.2.2
  have : v.take 2 = w.take 2 :=
    numeral_unique_length hy.2.1 hz.2.1 (by omega) (by rw [hy.2.2, hz.2.2, ← hY, ← hZ, hYZ])
  rw [← List.take_append_drop 2 v, this, h3, List.take_append_drop]

/-- C43: every accepted line of ASCII characters without leading whitespace has its cycle date in the
    last field, four digits of which the first two give the year. -/
theorem C43_records {r : Record} {line : Str} (hr : (r.read line).res = .ok true) (ha : Ascii line)
    (hn : NoLeadingSpace line) :
    ∃ f, (r.read line).obj.fields.getLast? = some f ∧ f.name = py!"Cycle Date" ∧ f.dec = .f032 ∧
      ∃ Y d rr, 1951 ≤ Y ∧ Y ≤ 2050 ∧ Decimal d Y ∧ (∃ n, Numeral rr n) ∧ rr.length = 2 ∧
        f.value = d.drop 2 ++ rr ∧ Shows f.dec f.value (d ++ py!", Release " ++ rr) := by
  obtain ⟨k, d, l, hacc⟩ := accepted hr
  obtain ⟨mid, hl⟩ := envelope hacc.lookup hacc.mem
  refine ⟨FieldSpec.field line ⟨py!"Cycle Date", .range 128 132, .f032⟩, ?_, rfl, rfl, ?_⟩
  · rw [accepted_fields hacc, hl, List.map_append, List.getLast?_append]
    rfl
  · have hsa : ∀ c ∈ strip line, c < 128 := fun c hc => ha c (mem_of_mem_strip hc)
    have hcols : (Slice.range 128 132).columns = [128, 129, 130, 131] := by decide
    have hval : (FieldSpec.field line ⟨py!"Cycle Date", .range 128 132, .f032⟩).value =
        pick (strip line) [128, 129, 130, 131] := by
      simp only [FieldSpec.field, hcols]
      exact pick_strip hacc.isRec hn (by intro c hc; simp at hc; omega)
    have hdig := pick_tail_digits hacc.isRec hsa (cs := [128, 129, 130, 131]) (by simp)
      (by intro i hi; simp at hi; omega)
    have hlen := pick_length (t := strip line) (cs := [128, 129, 130, 131])
      (by intro c hc; rw [hacc.isRec.length]; simp at hc; omega)
    rw [hval]
    generalize pick (strip line) [128, 129, 130, 131] = u at hdig hlen
    simp only [List.length_cons, List.length_nil] at hlen
    have hy : Numeral (u.take 2) (digitSum (u.take 2)) :=
      ⟨fun h0 => by have := congrArg List.length h0; rw [List.length_take, List.length_nil] at this; omega,
        fun c hc => isDigit_iff.1 (hdig.2 c (List.mem_of_mem_take hc)), rfl⟩
    obtain ⟨Y, dd, h1, h2, h3, h4, h5⟩ := C43_year (v := u) (List.take_append_drop 2 u).symm hy
      (by rw [List.length_take]; omega)
    refine ⟨Y, dd, u.drop 2, h1, h2, h4, ⟨_, ?_, fun c hc => isDigit_iff.1 (hdig.2 c (List.mem_of_mem_drop hc)), rfl⟩,
      by rw [List.length_drop]; omega, ?_, h5⟩
    · intro h0; have := congrArg List.length h0; rw [List.length_drop, List.length_nil] at this; omega
    · have hdl : dd.length = 4 := by
        have a := decimal_length_lt h4 (d := 4) (by omega) (by omega)
        have b := digitSum_lt h4.1.2.1
        rw [h4.1.2.2] at b
        rcases Nat.lt_or_ge dd.length 4 with h | h
        · have : 10 ^ dd.length ≤ 10 ^ 3 := Nat.pow_le_pow_right (by omega) (by omega)
          omega
        · omega
      have : dd.drop 2 = u.take 2 := by
        apply numeral_unique_length
        · exact fun c hc => h4.1.2.1 c (List.mem_of_mem_drop hc)
        · exact hy.2.1
        · rw [List.length_drop, List.length_take]; omega
        · rw [hy.2.2, ← h3, ← h4.1.2.2]
          conv => rhs; rw [← List.take_append_drop 2 dd]
          rw [digitSum_append, List.length_drop, hdl]
          have hlt := digitSum_lt (s := dd.drop 2) (fun c hc => h4.1.2.1 c (List.mem_of_mem_drop hc))
          rw [List.length_drop, hdl] at hlt
          omega
      rw [this, List.take_append_drop]

/-! ## C46 magnetic variation -/

/-- C46: direction and number are shown, the number with at least three digits. -/
theorem C46_variation {c : Nat} {w : Str} {n : Nat} (hw : Numeral w n) (hl : w.length ≤ 4300) :
    ∃ d, Numeral d n ∧ 3 ≤ d.length ∧ (3 < d.length → d.head? ≠ some 48) ∧
      Shows .f039 (c :: w) (d ++ py!" " ++ [c]) := by
  have hd := numeral_digits hw
  have hi : pyInt w = .ok (n : Int) := by rw [pyInt_digits hd hl, numeral_val hw]
  refine ⟨zfill 3 (natStr n), numeral_zfill (natStr_decimal n).1 3, by rw [zfill_length]; omega, ?_,
    fun rec legs => ?_⟩
  · intro h3
    rw [zfill_length] at h3
    have h3' : 3 < (natStr n).length := by omega
    have : zfill 3 (natStr n) = natStr n := by
      unfold zfill; rw [show 3 - (natStr n).length = 0 by omega]; rfl
    rw [this]
    intro h
    rw [(natStr_decimal n).2 h] at h3'
    simp at h3'
  · have hne : strip (c :: w) ≠ [] := by
      rw [Ne, strip_nil_iff]
      intro h
      obtain ⟨a, s, hs⟩ := List.exists_cons_of_ne_nil hd.1
      have h1 := h a (by rw [hs]; simp)
      rw [digit_not_space (hd.2 a (by rw [hs]; simp))] at h1
      cases h1
    have : field_039 (c :: w) = ret (zfill 3 (natStr n) ++ py!" " ++ [c]) := by
      unfold field_039
      rw [if_neg hne, show sliceFrom (c :: w) 1 = w from rfl, hi]
      simp only [bind, Except.bind, index_cons_zero]
      have : fmt03 (n : Int) = zfill 3 (natStr n) := by
        unfold fmt03; rw [if_neg (by omega), Int.natAbs_natCast]
      rw [this]
    exact congrArg (quiet legs) this

/-- C46: direction and number can be recovered from what is shown. -/
theorem C46_injective {c c' : Nat} {w w' s : Str} {n n' : Nat} (hw : Numeral w n) (hw' : Numeral w' n')
    (hl : w.length ≤ 4300) (hl' : w'.length ≤ 4300) (h : Shows .f039 (c :: w) s)
    (h' : Shows .f039 (c' :: w') s) : c = c' ∧ n = n' := by
  obtain ⟨d, hd, _, _, hs⟩ := C46_variation (c := c) hw hl
  obtain ⟨e, he, _, _, ht⟩ := C46_variation (c := c') hw' hl'
  have inj : ∀ {u a b : Str}, Shows .f039 u a → Shows .f039 u b → a = b := by
    intro u a b ha hb
    have h := (ha ⟨[], []⟩ []).symm.trans (hb ⟨[], []⟩ [])
    injection h with h1
    injection h1 with h1
    injection h1
  have heq := (inj hs h).trans (inj h' ht)
  obtain ⟨h1, h2⟩ := List.append_inj' heq rfl
  have h3 := (List.append_inj' h1 rfl).1
  exact ⟨(List.cons.inj h2).1, by rw [← hd.2.2, ← he.2.2, h3]⟩

/-- C46: a blank field is shown as it is. -/
theorem C46_blank {v : Str} (hv : AllSpace v) : Shows .f039 v v := by
  intro rec legs
  have : field_039 v = ret v := by unfold field_039; rw [if_pos (strip_nil_iff.2 hv)]
  exact congrArg (quiet legs) this

/-! ## C47 time zones -/

/-- C47, letters M to Z: the offset is shown with one sign. Missing: the letters A to L, for which the
    property is false (`C47_refuted`). -/
theorem C47_offset_partial {c : Nat} {w : Str} (hc : 77 ≤ c ∧ c ≤ 90) (hw : ∃ n, Numeral w n) :
    ∃ d, Decimal d (c - 77) ∧ Shows .f178 (c :: w) (py!"GMT +" ++ d ++ py!":" ++ w) := by
  refine ⟨_, natStr_decimal _, fun rec legs => ?_⟩
  have : field_178 (c :: w) = ret (py!"GMT +" ++ natStr (c - 77) ++ py!":" ++ w) := by
    unfold field_178
    simp only [index_cons_zero, bind, Except.bind]
    rw [if_pos (zone_numeric (by omega) hw)]
    simp only [upperIndex]
    rw [if_pos (by omega)]
    simp only
    rw [if_pos (by omega)]
    have : intStr ((c : Int) - 65 - 12) = natStr (c - 77) := by
      unfold intStr
      rw [if_neg (by omega), show ((c : Int) - 65 - 12).natAbs = c - 77 by omega]
    rw [this]; rfl
  exact congrArg (quiet legs) this

/-- C47 is false of every letter A to L: the minus sign is doubled. -/
theorem C47_refuted {c : Nat} {w : Str} (hc : 65 ≤ c ∧ c ≤ 76) (hw : ∃ n, Numeral w n) :
    ∃ d, Decimal d (77 - c) ∧ Shows .f178 (c :: w) (py!"GMT --" ++ d ++ py!":" ++ w) := by
  refine ⟨_, natStr_decimal _, fun rec legs => ?_⟩
  have : field_178 (c :: w) = ret (py!"GMT --" ++ natStr (77 - c) ++ py!":" ++ w) := by
    unfold field_178
    simp only [index_cons_zero, bind, Except.bind]
    rw [if_pos (zone_numeric (by omega) hw)]
    simp only [upperIndex]
    rw [if_pos (by omega)]
    simp only
    rw [if_neg (by omega)]
    have : intStr ((c : Int) - 65 - 12) = 45 :: natStr (77 - c) := by
      unfold intStr
      rw [if_pos (by omega), show ((c : Int) - 65 - 12).natAbs = 77 - c by omega]
    rw [this]; rfl
  exact congrArg (quiet legs) this

/-- C47: a lower-case letter (or any other letter that is not A to Z) raises. -/
theorem C47_other_letter {c : Nat} {w : Str} (hc : PyUnicode.alpha c = true) (hc' : ¬ (65 ≤ c ∧ c ≤ 90))
    (hw : ∃ n, Numeral w n) : Rejects .f178 (c :: w) := by
  intro rec legs
  have hcond : (isAlpha [c] && isNumeric (sliceFrom (c :: w) 1)) = true := by
    obtain ⟨n, hw⟩ := hw
    have h2 : sliceFrom (c :: w) 1 = w := rfl
    rw [h2, isNumeric_digits (numeral_digits hw)]
    simp [isAlpha, hc]
  have : field_178 (c :: w) = .error .valueError := by
    unfold field_178
    simp only [index_cons_zero, bind, Except.bind]
    rw [if_pos hcond]
    simp only [upperIndex]
    rw [if_neg hc']
  exact congrArg (quiet legs) this

/-- C47: anything else of ASCII characters is reported as unsupported. -/
theorem C47_unsupported {c : Nat} {w : Str} (ha : Ascii (c :: w))
    (h : ¬ ((65 ≤ c ∧ c ≤ 90) ∨ (97 ≤ c ∧ c ≤ 122)) ∨ ¬ ∃ n, Numeral w n) :
    Shows .f178 (c :: w) (py!"Unsupported Value: \"" ++ (c :: w) ++ py!"\"") := by
  intro rec legs
  have hcond : (isAlpha [c] && isNumeric (sliceFrom (c :: w) 1)) = false := by
    rw [Bool.and_eq_false_iff]
    rcases h with h | h
    · left
      simp only [isAlpha, List.isEmpty_cons, Bool.not_false, List.all_cons, List.all_nil, Bool.and_true,
        Bool.true_and]
      rw [PyUnicode.alpha_ascii c (ha c (by simp))]
      simp only [Bool.or_eq_false_iff, Bool.and_eq_false_imp, decide_eq_true_eq, decide_eq_false_iff_not]
      omega
    · right
      cases hn : isNumeric (sliceFrom (c :: w) 1) with
      | false => rfl
      | true =>
        have hd := (numeric_ascii_digits (s := w) (fun c hc => ha c (by simp [hc]))).1 hn
        exact absurd ⟨_, hd.1, fun c hc => isDigit_iff.1 (hd.2 c hc), rfl⟩ h
  have : field_178 (c :: w) = ret (unsupported (c :: w)) := by
    unfold field_178
    simp only [index_cons_zero, bind, Except.bind]
    rw [hcond]; rfl
  exact congrArg (quiet legs) this

/-! ## C48 leg times -/

/-- C48: the leg time decoder never raises and changes no state. -/
theorem C48_total (v : Str) (rec : RecInfo) (legs : Legs) :
    ∃ x, (runDec .f065 v rec legs).res = .ok x ∧ (runDec .f065 v rec legs).legs = legs := by
  have : ∃ x, (field_065 v).1 = .ok x := by
    unfold field_065
    split
    · exact ⟨_, rfl⟩
    · split <;> exact ⟨_, rfl⟩
  obtain ⟨x, hx⟩ := this
  exact ⟨x, hx, rfl⟩

/-- C48: blank gives no value. -/
theorem C48_blank {v : Str} (hv : AllSpace v) (rec : RecInfo) (legs : Legs) :
    runDec .f065 v rec legs = ⟨.ok .none, [], legs⟩ := by
  have : field_065 v = (.ok .none, []) := by unfold field_065; rw [if_pos (strip_nil_iff.2 hv)]
  exact congrArg (noisy legs) this

/-- C48: minutes and tenths of minutes are shown as minutes and seconds, fewer than 60. -/
theorem C48_time {a b : Nat} {rest : Str} (ha : 48 ≤ a ∧ a ≤ 57) (hb : 48 ≤ b ∧ b ≤ 57) :
    ∃ m s k, Decimal m (a - 48) ∧ Decimal s k ∧ k < 60 ∧ 10 * k = 60 * (b - 48) ∧
      Shows .f065 (a :: b :: rest) (m ++ py!"m " ++ s ++ py!"s") := by
  refine ⟨natStr (a - 48), natStr (6 * (b - 48)), 6 * (b - 48), natStr_decimal _, natStr_decimal _,
    by omega, by omega, fun rec legs => ?_⟩
  have hint : ∀ c, 48 ≤ c ∧ c ≤ 57 → pyInt [c] = .ok ((c - 48 : Nat) : Int) := by
    intro c hc
    have hd : Digits [c] := ⟨by simp, fun d hd => by
      simp only [List.mem_singleton] at hd; subst hd; exact isDigit_iff.2 hc⟩
    rw [pyInt_digits hd (by simp), digitsVal_eq]; simp [digitSum]
  have hne : strip (a :: b :: rest) ≠ [] := by
    rw [Ne, strip_nil_iff]
    intro h
    have h1 := h a (by simp)
    rw [digit_not_space (isDigit_iff.2 ha)] at h1
    cases h1
  have hi : ∀ k : Nat, intStr (k : Int) = natStr k := by
    intro k; unfold intStr; rw [if_neg (by omega), Int.natAbs_natCast]
  have : field_065 (a :: b :: rest) =
      (ret (natStr (a - 48) ++ py!"m " ++ natStr (6 * (b - 48)) ++ py!"s"), []) := by
    unfold field_065 legTime
    rw [if_neg hne]
    simp only [index_cons_zero, index_cons_one, hint a ha, hint b hb]
    rw [hi, show ((b - 48 : Nat) : Int) * 6 = ((6 * (b - 48) : Nat) : Int) by omega, hi]
  exact congrArg (noisy legs) this

/-- C48: any other ASCII text is shown as invalid, naming the value, and one diagnostic is printed. -/
theorem C48_invalid {v : Str} (hasc : Ascii v) (hb : ¬ AllSpace v)
    (h : ¬ ∃ a b rest, v = a :: b :: rest ∧ (48 ≤ a ∧ a ≤ 57) ∧ 48 ≤ b ∧ b ≤ 57) (rec : RecInfo) (legs : Legs) :
    ∃ e, runDec .f065 v rec legs =
      ⟨.ok (.str (py!"Invalid Value: \"" ++ v ++ py!"\"")), [.legTime v e], legs⟩ := by
  have hbad : ∀ c, c < 128 → ¬ (48 ≤ c ∧ c ≤ 57) → ∃ e, pyInt [c] = .error e := by
    intro c hc hd
    exact ⟨_, pyInt_bad hc hd⟩
  have hleg : ∃ e, legTime v = .error e := by
    unfold legTime
    cases v with
    | nil => exact ⟨_, rfl⟩
    | cons a v =>
      rw [index_cons_zero]
      simp only
      by_cases ha : 48 ≤ a ∧ a ≤ 57
      · cases v with
        | nil =>
          have : index [a] 1 = .error .indexError := rfl
          simp only [this]
          cases pyInt [a] <;> exact ⟨_, rfl⟩
        | cons b rest =>
          have hb' : ¬ (48 ≤ b ∧ b ≤ 57) := fun hb' => h ⟨a, b, rest, rfl, ha, hb'⟩
          obtain ⟨e, he⟩ := hbad b (hasc b (by simp)) hb'
          simp only [index_cons_one, he]
          cases pyInt [a] <;> exact ⟨_, rfl⟩
      · obtain ⟨e, he⟩ := hbad a (hasc a (by simp)) ha
        rw [he]; exact ⟨_, rfl⟩
  obtain ⟨e, he⟩ := hleg
  refine ⟨e, ?_⟩
  have : field_065 v = (ret (py!"Invalid Value: \"" ++ v ++ py!"\""), [.legTime v e]) := by
    unfold field_065
    rw [if_neg (by rw [strip_nil_iff]; exact hb), he]
  exact congrArg (noisy legs) this

/-! ## C60 numbers returned as floats -/

/-- C60: for the three decoders that return a `float`, the value returned for a digit string `n` of 2 to
    15 digits equals `float(v[:-1] + '.' + v[-1])`, and with one decimal it prints as exactly `n/10`. -/
theorem C60_float {fn : DecFn} (hf : fn ∈ [DecFn.f062, .f135, .f269]) {a : Str} {b n : Nat}
    (hv : Numeral (a ++ [b]) n) (ha : a ≠ []) (hl : (a ++ [b]).length ≤ 15) :
    ∃ x, pyFloat (a ++ [46] ++ [b]) = .ok x ∧ Fixed 1 (x.fmt 1) n ∧
      ∀ (rec : RecInfo) (legs : Legs), runDec fn (a ++ [b]) rec legs = ⟨.ok (.float x), [], legs⟩ := by
  have hd := numeral_digits hv
  have hfl : pyFloat (a ++ [b]) = .ok (roundDbl false n 1) := by rw [pyFloat_digits hd, numeral_val hv]
  have hfix : Fixed 1 (((roundDbl false n 1).divNat 10).fmt 1) n :=
    fmt_div (d := 1) (numeral_lt15 hv hl) (by omega) (by decide)
  refine ⟨(roundDbl false n 1).divNat 10, ?_, hfix, fun rec legs => ?_⟩
  · have h1 : Digits a := ⟨ha, fun c hc => hd.2 c (by simp [hc])⟩
    have h2 : isDigit b = true := hd.2 b (by simp)
    rw [pyFloat_point h1 h2, numeral_val hv, divNat_ten (numeral_lt15 hv hl)]
  · have hne : strip (a ++ [b]) ≠ [] := by rw [strip_digits hd.2]; exact hd.1
    simp only [List.mem_cons, List.not_mem_nil, or_false] at hf
    rcases hf with rfl | rfl | rfl
    · have : field_062 (a ++ [b]) = .ok (.float ((roundDbl false n 1).divNat 10)) := by
        unfold field_062; rw [if_pos (isNumeric_digits hd), hfl]; rfl
      exact congrArg (quiet legs) this
    · have : field_135 (a ++ [b]) = .ok (.float ((roundDbl false n 1).divNat 10)) := by
        unfold field_135; rw [if_pos (isNumeric_digits hd), hfl]; rfl
      exact congrArg (quiet legs) this
    · have : field_269 (a ++ [b]) = .ok (.float ((roundDbl false n 1).divNat 10)) := by
        unfold field_269; rw [if_pos hne, hfl]; rfl
      exact congrArg (quiet legs) this

end

/-! ## Examples: the hypotheses hold of real values -/

section
attribute [local instance] Py.Tables.cpython311

-- C41, C42
example : Numeral (py!"00429") 429 ∧ (429 : Nat) ≠ 0 ∧ Decimal (py!"429") 429 := by
  refine ⟨⟨?_, ?_, ?_⟩, ?_, ⟨?_, ?_, ?_⟩, ?_⟩ <;> decide
example : (runDec .f030 (py!"05000") ⟨[], []⟩ []).res = .ok (.str (py!"5000 ft")) := by decide +kernel
example : (runDec .f030 (py!"FL180") ⟨[], []⟩ []).res = .ok (.str (py!"FL180")) := by decide +kernel
example : Numeral (py!"00000") 0 := by refine ⟨?_, ?_, ?_⟩ <;> decide
example : (runDec .f054 (py!"119") ⟨[], []⟩ []).res = .ok (.str (py!"11900 ft")) := by decide +kernel
-- C43
example : (runDec .f032 (py!"8808") ⟨[], []⟩ []).res = .ok (.str (py!"1988, Release 08")) := by
  decide +kernel
example : (runDec .f032 (py!"5001") ⟨[], []⟩ []).res = .ok (.str (py!"2050, Release 01")) := by
  decide +kernel
example : (Record.new.read Sample.airport).res = .ok true ∧ NoLeadingSpace Sample.airport ∧
    Ascii Sample.airport := by
  refine ⟨by decide +kernel, ?_, ?_⟩
  · intro c hc; rw [← Option.some.inj hc]; decide
  · unfold Ascii; decide +kernel
-- C44
example : Fixed 2 (py!"110.20") 11020 := by
  refine ⟨py!"110", py!"20", rfl, ⟨⟨?_, ?_, ?_⟩, ?_⟩, ⟨?_, ?_, ?_⟩, ?_⟩ <;> decide
example : (runDec .f034 (py!"11020") ⟨[], []⟩ []).res = .ok (.str (py!"110.20")) := by decide +kernel
example : (Record.new.read Sample.vhf).res = .ok true ∧ (∃ f ∈ (Record.new.read Sample.vhf).obj.fields,
    f.dec ∈ frequencyFields ∧ f.value = py!"11020") := by decide +kernel
-- C45
example : (runDec .f026 (py!"2520") ⟨[], []⟩ []).res = .ok (.str (py!"252.0")) := by decide +kernel
example : (runDec .f026 (py!"275T") ⟨[], []⟩ []).res = .ok (.str (py!"275T")) := by decide +kernel
example : (runDec .f027 (py!"T015") ⟨[], []⟩ []).res = .ok (.str (py!"1.5 min")) := by decide +kernel
example : (runDec .f027 (py!"0123") ⟨[], []⟩ []).res = .ok (.str (py!"12.3 nm")) := by decide +kernel
-- C46
example : (runDec .f039 (py!"E0190") ⟨[], []⟩ []).res = .ok (.str (py!"190 E")) := by decide +kernel
-- C47
example : (runDec .f178 (py!"U00") ⟨[], []⟩ []).res = .ok (.str (py!"GMT +8:00")) := by decide +kernel
example : (runDec .f178 (py!"A00") ⟨[], []⟩ []).res = .ok (.str (py!"GMT --12:00")) := by
  decide +kernel
example : PyUnicode.alpha 117 = true ∧ (runDec .f178 (py!"u00") ⟨[], []⟩ []).res = .error .valueError := by
  decide +kernel
-- C48
example : (runDec .f065 (py!"15") ⟨[], []⟩ []).res = .ok (.str (py!"1m 30s")) := by decide +kernel
example : (runDec .f065 (py!"1X") ⟨[], []⟩ []).res = .ok (.str (py!"Invalid Value: \"1X\"")) := by decide +kernel
-- C60
example : Numeral (py!"0" ++ [53]) 5 ∧ (py!"0") ≠ [] := by
  refine ⟨⟨?_, ?_, ?_⟩, ?_⟩ <;> decide

end
end Arinc
