import Verif.Lemmas.Meaning
import Verif.Props.Samples
/-!
# C74: what is shown for every field

The meaning of a raw value is `meaning` of `Spec/Meaning.lean`.
-/
namespace Arinc
open Py Spec

section
variable [PyUnicode]

/-- the field shows the reading, whatever the record and the history, and nothing is printed -/
def Reads (fn : DecFn) (v : Str) (x : Reading) : Prop :=
  ∀ (rec : RecInfo) (legs : Legs), runDec fn v rec legs = ⟨x.value, [], legs⟩

theorem reads_text {fn : DecFn} {v s : Str} (h : Shows fn v s) : Reads fn v (.text s) := h

theorem reads_code {t : CodeField} (ht : t ∈ codeFields) {v : Str} {x : Reading}
    (h : meaningCode t v = some x) : Reads t.fn v x := by
  unfold meaningCode at h
  split at h
  · next hb =>
    cases h
    simp only [Bool.and_eq_true] at hb
    exact reads_text (C49_blank ht hb.1 (blank_iff.1 hb.2))
  · next hb =>
    have hb' : t.blank = true → ¬ AllSpace v := fun h1 h2 => hb (by rw [h1, blank_iff.2 h2]; rfl)
    split at h
    · next d hd => cases h; exact reads_text (C49_documented ht (lookup_mem hd))
    · next hd =>
      have hs := C49_otherwise ht (lookup_none hd) hb'
      cases ho : t.otherwise with
      | text s => rw [ho] at h hs; cases h; exact reads_text hs
      | prefixed s => rw [ho] at h hs; cases h; exact reads_text hs
      | same => rw [ho] at h hs; cases h; exact reads_text hs
      | unsupported => rw [ho] at h hs; cases h; exact reads_text hs
      | raises => rw [ho] at h; cases h

theorem reads_feet {fn : DecFn} (hf : fn ∈ feetFields) {v : Str} (ha : Ascii v) : Reads fn v (meaningFeet v) := by
  unfold meaningFeet
  split
  · next h => exact reads_text (C41_refuted hf (number_some h)).1
  · next n h0 h =>
    obtain ⟨d, hd, hs⟩ := C41_feet_partial hf (number_some h) h0
    rw [decimal_unique (decimal_decimal n) hd]
    exact reads_text hs
  · next h => exact reads_text (C41_text hf ha (number_none h))

theorem shows_fixed {fn : DecFn} {v : Str} {d n : Nat} (hd : 0 < d)
    (h : ∃ s, Fixed d s n ∧ Shows fn v s) : Shows fn v (fixed d n) := by
  obtain ⟨s, h1, h2⟩ := h
  rw [fixed_unique (fixed_fixed hd) h1]; exact h2

theorem reads_tenths {fn : DecFn} (hf : fn ∈ [DecFn.f062, .f135, .f269]) {v : Str} {n : Nat}
    (hv : Numeral v n) (hl : v.length ≤ 15) : Reads fn v (.tenths n) := by
  intro rec legs
  rw [value_tenths]
  have hd := numeral_digits hv
  have hfl : pyFloat v = .ok (roundDbl false n 1) := by rw [pyFloat_digits hd, numeral_val hv]
  have hdiv := divNat_ten (numeral_lt15 hv hl)
  simp only [List.mem_cons, List.not_mem_nil, or_false] at hf
  have hnb : ¬ strip v = [] := by
    rw [strip_digits hd.2]; exact hv.1
  rcases hf with rfl | rfl | rfl
  · refine congrArg (quiet legs) (?_ : field_062 v = _)
    unfold field_062; rw [if_pos (isNumeric_digits hd), hfl, ← hdiv]; rfl
  · refine congrArg (quiet legs) (?_ : field_135 v = _)
    unfold field_135; rw [if_pos (isNumeric_digits hd), hfl, ← hdiv]; rfl
  · refine congrArg (quiet legs) (?_ : field_269 v = _)
    unfold field_269; rw [if_pos hnb, hfl, ← hdiv]; rfl

theorem reads_two {fn : DecFn} {c₁ c₂ : List (Str × Str)} {other : Str} {a b : Nat} {rest : Str} {x : Reading}
    (h1 : ∀ s, ([a], s) ∈ c₁ → Shows fn (a :: b :: rest) s)
    (h2 : (∀ s, ([a], s) ∉ c₁) → (∀ s, ([b], s) ∈ c₂ → Shows fn (a :: b :: rest) s) ∧
      ((∀ s, ([b], s) ∉ c₂) → Shows fn (a :: b :: rest) other))
    (h : meaningTwo c₁ c₂ other (a :: b :: rest) = some x) : Reads fn (a :: b :: rest) x := by
  simp only [meaningTwo] at h
  split at h
  · next hs => cases h; exact reads_text (h1 _ (lookup_mem hs))
  · next hn =>
    have h2 := h2 (lookup_none hn)
    split at h
    · next hs => cases h; exact reads_text (h2.1 _ (lookup_mem hs))
    · next hn' => cases h; exact reads_text (h2.2 (lookup_none hn'))

/-- everything except the two types that look at the record or change the leg table -/
theorem reads_other {fn : DecFn} {v : Str} {sec : Str} (ha : classed fn = true → Ascii v) (h7 : fn ≠ .f007) (h21 : fn ≠ .f021)
    (hi : ∀ n, fn = .ident n → n ∈ identityFns) {x : Reading} (h : meaningOther sec fn v = some x) :
    Reads fn v x := by
  cases fn <;> simp only [meaningOther] at h
  case ident n => cases h; exact reads_text (C54_passthrough (hi n rfl) v)
  case f007 => exact absurd rfl h7
  case f021 => exact absurd rfl h21
  case f008 =>
    split at h
    · next hw =>
      cases h
      exact reads_text (C64_route_identifier (by simp) (padded_strip v) (wordOf_true.1 hw))
    · cases h
  case f009 =>
    cases h
    split
    · next hw => exact reads_text (C64_route_identifier (by simp) (padded_strip v) (wordOf_true.1 hw))
    · next hw =>
      refine (C64_route_identifier_otherwise (ha rfl) ?_).2
      rintro ⟨w, hp, hw'⟩
      rw [strip_word hp hw'] at hw
      exact hw (wordOf_true.2 hw')
  case f010 =>
    split at h
    · cases h; exact reads_text (C61_approach _ _ _ _ _)
    · cases h
  case f012 =>
    split at h
    · next kind hk =>
      cases h
      refine reads_text ((C61_sequence_number v).1 kind ?_)
      have := hk
      clear hk
      unfold sequenceKinds at this ⊢
      generalize (strip v).length = n at this ⊢
      simp only [List.lookup_cons] at this
      repeat' split at this
      all_goals simp_all
    · next hk =>
      cases h
      refine reads_text ((C61_sequence_number v).2 fun kind hm => ?_)
      unfold sequenceKinds at hk hm
      generalize (strip v).length = n at hk hm
      simp only [List.mem_cons, List.not_mem_nil, or_false, Prod.mk.injEq] at hm
      rcases hm with ⟨rfl, _⟩ | ⟨rfl, _⟩ | ⟨rfl, _⟩ | ⟨rfl, _⟩ <;> cases hk
  case f016 =>
    cases h
    split
    · next h0 => exact reads_text ((C61_continuation_number v).1 h0)
    · next h0 =>
      split
      · next h1 => exact reads_text ((C61_continuation_number v).2.1 h1)
      · next h1 => exact reads_text ((C61_continuation_number v).2.2 h0 h1)
  case f017 =>
    split at h
    · cases h; exact reads_text (C56_positions _ _ _ _ _)
    · cases h
  case f022 =>
    split at h
    · next hc =>
      cases h
      by_cases hb : AllSpace v
      · rw [strip_nil_iff.2 hb]; exact reads_text (C64_trimmed_blank (by decide) hb)
      · rw [blank_false.2 hb, Bool.false_or] at hc
        exact reads_text (C64_trimmed (by decide) (padded_strip v) (by
          unfold TrimmedOK; rw [if_pos rfl]; exact wordOf_false.1 hc))
    · cases h
  case f023 | f024 | f025 =>
    split at h
    · next hc =>
      cases h
      by_cases hb : AllSpace v
      · rw [strip_nil_iff.2 hb]; exact reads_text (C64_trimmed_blank (by decide) hb)
      · rw [blank_false.2 hb, Bool.false_or] at hc
        simp only [Bool.and_eq_true, decide_eq_true_eq] at hc
        exact reads_text (C64_trimmed (by decide) (padded_strip v) (by
          unfold TrimmedOK; rw [if_neg (by decide)]; exact ⟨wordOf_true.1 hc.1, hc.2⟩))
    · cases h
  case f026 =>
    split at h
    · next hb => cases h; exact reads_text (C45_blank (blank_iff.1 hb)).1
    · next hb =>
      split at h
      · next hl =>
        split at h
        · next n hn => cases h; exact reads_text (shows_fixed (by omega) (C45_course (number_some hn) hl))
        · split at h
          · next hc =>
            cases h
            simp only [Bool.and_eq_true, decide_eq_true_eq] at hc
            refine reads_text fun rec legs => congrArg (quiet legs) (?_ : field_026 v = ret (strip v))
            unfold field_026
            have hw := wordOf_true.1 hc.1
            have h1 : ¬ (strip v).length = 0 := by simpa using hw.1
            have h2 : ¬ (isAlnum (strip v) = false ∨ (strip v).length > 4) := by
              rw [(isAlnum_iff (ascii_strip (ha rfl))).2 hw]; simpa using hl
            simp only
            rw [if_neg h1, if_neg h2, if_pos]
            unfold endsWithChar; rw [hc.2]; rfl
          · cases h
      · cases h
  case f027 =>
    split at h
    · next hb => cases h; exact reads_text (C45_blank (blank_iff.1 hb)).2
    · next hb =>
      split at h
      · next hl =>
        split at h
        · next n hn =>
          cases h
          obtain ⟨s, h1, h2⟩ := C45_distance (number_some hn) hl
          rw [fixed_unique (fixed_fixed (by omega)) h1]; exact reads_text h2
        · split at h
          · next w hw =>
            cases hn : number w with
            | none => rw [hn] at h; cases h
            | some n =>
              rw [hn] at h; cases h
              rw [hw] at hl
              obtain ⟨s, h1, h2⟩ := C45_time hw (number_some hn) (by simp at hl; omega)
              dsimp only
              rw [fixed_unique (fixed_fixed (by omega)) h1]; exact reads_text h2
          · cases h
      · cases h
  case f029 | f030 | f048 | f050 | f053 | f073 | f086 | f092 | f123 | f127 | f147 | f161 | f184 | f209 | f240 =>
    cases h; exact reads_feet (by decide) (ha rfl)
  case f032 =>
    split at h
    · next hl =>
      cases hn : number (v.take 2) with
      | none => rw [hn] at h; cases h
      | some y =>
        rw [hn] at h; cases h
        have hlen : (v.take 2).length = 2 := by simp; omega
        obtain ⟨Y, d, h1, h2, h3, h4, h5⟩ := C43_year (List.take_append_drop 2 v).symm (number_some hn) hlen
        have hy := numeral_lt (number_some hn) (Nat.le_of_eq hlen)
        have : (if y > 50 then 1900 + y else 2000 + y) = Y := by split <;> omega
        dsimp only
        rw [this, decimal_unique (decimal_decimal Y) h4]
        exact reads_text h5
    · cases h
  case f034 =>
    split at h
    · next hb => cases h; exact reads_text (C64_blank_number (blank_iff.1 hb)).1
    · next hb =>
      split at h
      · next hl =>
        cases hn : number (strip v) with
        | none => rw [hn] at h; cases h
        | some n =>
          rw [hn] at h; cases h
          have := shows_fixed (by omega) (C44_exact (fn := .f034) (by decide) (number_some hn) hl)
          intro rec legs
          have e : field_034 v rec.ident rec.raw = field_034 (strip v) rec.ident rec.raw := by
            unfold field_034; rw [strip_strip]
          show noisy legs (field_034 v rec.ident rec.raw) = _
          rw [e]
          exact this rec legs
      · cases h
  case f039 =>
    split at h
    · next hb => cases h; exact reads_text (C46_blank (blank_iff.1 hb))
    · split at h
      · next c w hb =>
        split at h
        · next hl =>
          cases hn : number w with
          | none => rw [hn] at h; cases h
          | some n =>
            rw [hn] at h; cases h
            obtain ⟨d, h1, h2, h3, h4⟩ := C46_variation (c := c) (number_some hn) hl
            have : List.replicate (3 - (decimal n).length) 48 ++ decimal n = d := by
              show zfill 3 (decimal n) = d
              have hz : Numeral (zfill 3 (decimal n)) n := numeral_zfill (decimal_decimal n).1 3
              have hlen := zfill_length 3 (decimal n)
              refine numeral_unique_length hz.2.1 h1.2.1 ?_ (by rw [hz.2.2, h1.2.2])
              rw [hlen]
              by_cases h3' : 3 < d.length
              · have hd : Decimal d n := ⟨h1, fun hh => absurd hh (h3 h3')⟩
                rw [decimal_unique (decimal_decimal n) hd]; omega
              · have hle := decimal_length_le (decimal_decimal n) h1
                omega
            dsimp only
            rw [this]
            exact reads_text h4
        · cases h
      · cases h
  case f042 =>
    split at h
    · cases h; exact reads_text ((C61_waypoint_type _ _ _).1 rfl)
    · next hx =>
      match v, h, hx with
      | [], h, _ => cases h
      | [_], h, _ => cases h
      | a :: b :: rest, h, hx =>
        have h78 : a ≠ 78 := fun e => hx b rest (by rw [e])
        obtain ⟨_, h1, h2⟩ := C61_waypoint_type a b rest
        exact reads_two h1 (h2 h78) h
  case f043 =>
    cases h
    exact reads_text (C64_name (padded_strip v) (fun c hc => strip_head hc) (fun c hc => strip_last hc))
  case f045 | f103 =>
    split at h
    · next n hn =>
      split at h
      · next hl => cases h; exact reads_text (shows_fixed (by omega) (C44_exact (by decide) (number_some hn) hl))
      · cases h
    · next hn => cases h; exact reads_text (C64_bad_value (by decide) (ha rfl) (number_none hn))
  case f054 =>
    split at h
    · next hn => cases h; exact reads_text (C42_zero (number_some hn))
    · next n h0 hn =>
      cases h
      obtain ⟨d, h1, h2⟩ := C42_runway_partial (number_some hn) (fun e => h0 (by rw [e]))
      rw [decimal_unique (decimal_decimal _) h1]; exact reads_text h2
    · next hn => cases h; exact reads_text (C42_text (ha rfl) (number_none hn))
  case f062 | f135 =>
    split at h
    · next n hn =>
      split at h
      · next hl => cases h; exact reads_tenths (by decide) (number_some hn) hl
      · cases h
    · next hn => cases h; exact reads_text (C64_bad_value (by decide) (ha rfl) (number_none hn))
  case f065 =>
    split at h
    · next hb => cases h; exact fun rec legs => C48_blank (blank_iff.1 hb) rec legs
    · split at h
      · next a b rest hb =>
        cases hm : number [a] with
        | none => rw [hm] at h; cases h
        | some m =>
          cases ht : number [b] with
          | none => rw [hm, ht] at h; cases h
          | some t =>
            rw [hm, ht] at h; cases h
            have na := number_some hm
            have nb := number_some ht
            obtain ⟨p, q, k, h1, h2, h3, h4, h5⟩ :=
              C48_time (rest := rest) (na.2.1 a (by simp)) (nb.2.1 b (by simp))
            have ea : a - 48 = m := by have := na.2.2; simpa [digitSum] using this
            have eb : b - 48 = t := by have := nb.2.2; simpa [digitSum] using this
            rw [ea] at h1
            rw [eb] at h4
            have ek : 6 * t = k := by omega
            dsimp only
            rw [ek, decimal_unique (decimal_decimal m) h1, decimal_unique (decimal_decimal k) h2]
            exact reads_text h5
      · cases h
  case f072 =>
    split at h
    · next hn =>
      cases h
      obtain ⟨n, hn⟩ := number_isSome.1 hn
      exact reads_text ((C64_speed_limit v).1 n hn)
    · split at h
      · next hb => cases h; exact reads_text ((C64_speed_limit v).2.1 (blank_iff.1 hb))
      · cases h
  case f082 =>
    split at h
    · next a b rest =>
      obtain ⟨h1, h2, _⟩ := C61_waypoint_usage a b rest
      split at h
      · next hs => cases h; exact reads_text (h1 _ (lookup_mem hs))
      · next hn =>
        split at h
        · next e => cases h; exact reads_text (h2 (lookup_none hn) e)
        · cases h
    · cases h
  case f118 =>
    split at h
    · next a b rest =>
      obtain ⟨h1, h2, _⟩ := C61_boundary_via a b rest
      cases hs : boundaryVias.lookup [a] with
      | none => rw [hs] at h; cases h
      | some s =>
        rw [hs] at h; cases h
        split
        · next e => exact reads_text (h1 s (lookup_mem hs) e)
        · next e => exact reads_text (h2 s (lookup_mem hs) e)
    · cases h
  case f178 =>
    split at h
    · next c w =>
      split at h
      · next hc =>
        simp only [Bool.and_eq_true] at hc
        have hw := number_isSome.1 hc.2
        split at h
        · next hr =>
          cases h
          obtain ⟨d, h1, h2⟩ := C47_offset_partial hr hw
          rw [decimal_unique (decimal_decimal _) h1]; exact reads_text h2
        · split at h
          · next hr =>
            cases h
            obtain ⟨d, h1, h2⟩ := C47_refuted hr hw
            rw [decimal_unique (decimal_decimal _) h1]; exact reads_text h2
          · cases h
      · next hc =>
        cases h
        refine reads_text (C47_unsupported (ha rfl) ?_)
        by_cases hl : (65 ≤ c ∧ c ≤ 90) ∨ (97 ≤ c ∧ c ≤ 122)
        · right
          intro hn
          refine hc ?_
          rw [number_isSome.2 hn, wordOf_false.2 ⟨by simp, by simpa [Letter] using hl⟩]; rfl
        · exact .inl hl
    · cases h
  case f196 =>
    match v, h with
    | [], h => cases h
    | [_], h => cases h
    | a :: b :: rest, h =>
      obtain ⟨h1, h2⟩ := C61_name_format a b rest
      exact reads_two h1 h2 h
  case f269 =>
    split at h
    · next hb => cases h; exact reads_text (C64_blank_number (blank_iff.1 hb)).2
    · split at h
      · next hl =>
        cases hn : number v with
        | none => rw [hn] at h; cases h
        | some n => rw [hn] at h; cases h; exact reads_tenths (by decide) (number_some hn) hl
      · cases h
  all_goals cases h

/-! ## C74 -/

theorem value_ok (x : Reading) : ∃ y, x.value = .ok y := by
  cases x with
  | text s => exact ⟨_, rfl⟩
  | tenths n => exact ⟨_, value_tenths⟩
  | nothing => exact ⟨_, rfl⟩

theorem meaning_of (fn : DecFn) (v : Str) (rec : RecInfo) {legs : Legs} (hl : Grown legs) (ha : classed fn = true → Ascii v)
    (hi : ∀ n, fn = .ident n → n ∈ identityFns) {x : Reading} (h : meaning rec.ident fn v = some x) :
    (runDec fn v rec legs).res = x.value ∧ (runDec fn v rec legs).out = [] := by
  unfold meaning at h
  split at h
  · next t ht =>
    have he : t.fn = fn := by have := List.find?_some ht; simpa using this
    have := reads_code (List.mem_of_find?_eq_some ht) h rec legs
    rw [he] at this
    rw [this]; exact ⟨rfl, rfl⟩
  · by_cases h7 : fn = .f007
    · subst h7
      simp only [meaningOther] at h
      obtain ⟨h1, h2⟩ := C49_route_type v rec legs
      split at h
      · next d hd => cases h; rw [h1 d (lookup_mem hd)]; exact ⟨rfl, rfl⟩
      · next hn => cases h; rw [h2 (lookup_none hn)]; exact ⟨rfl, rfl⟩
    · by_cases h21 : fn = .f021
      · subst h21
        have ho : (runDec .f021 v rec legs).out = [] := by
          show (field_021 v legs).out = []
          unfold field_021
          simp only
          repeat' split
          all_goals rfl
        refine ⟨?_, ho⟩
        simp only [meaningOther] at h
        obtain ⟨h1, h2, h3, _⟩ := C49_path_terminator v rec hl
        split at h
        · next hb => cases h; exact h2 (blank_iff.1 hb)
        · next hb =>
          have hb' : ¬ AllSpace v := fun hv => hb (blank_iff.2 hv)
          split at h
          · next d hd => cases h; exact h1 d (lookup_mem hd)
          · next hn =>
            split at h
            · next hw =>
              cases h
              exact h3 hb' (lookup_none hn) ((isAlpha_iff (ascii_strip (ha rfl))).2 (wordOf_false.1 hw))
            · cases h
      · rw [reads_other ha h7 h21 hi h rec legs]; exact ⟨rfl, rfl⟩

/-- C74: what is shown for a field of ASCII characters is its meaning, in any process, and nothing is
    printed. (`hi`: a type that passes its value through is one of those that exist, as it is in every
    record, `C54_records`.) -/
theorem C74_meaning (fn : DecFn) (v : Str) (rec : RecInfo) {legs : Legs} (hl : Grown legs) (ha : Ascii v)
    (hi : ∀ n, fn = .ident n → n ∈ identityFns) {x : Reading} (h : meaning rec.ident fn v = some x) :
    (runDec fn v rec legs).res = x.value ∧ (runDec fn v rec legs).out = [] :=
  meaning_of fn v rec hl (fun _ => ha) hi h

/-- every field of every accepted record has the width `C74_complete` asks for -/
theorem C74_widths (r : Record) (line : Str) (h : (r.read line).res = .ok true) (f : Field)
    (hf : f ∈ (r.read line).obj.fields) : fullWidth f.dec f.value.length = true := by
  obtain ⟨k, d, l, ha⟩ := accepted h
  obtain ⟨s, hs, hn, he, hl⟩ := accepted_width ha hf
  rw [he, hl]
  have := List.all_eq_true.1 full_width _ (lookup_mem ha.lookup)
  exact List.all_eq_true.1 (List.all_eq_true.1 this l ha.mem) s hs

omit [PyUnicode] in
theorem strip_length_le (v : Str) : (strip v).length ≤ v.length := by
  obtain ⟨pre, post, e, _, _⟩ := padded_strip v
  conv => rhs; rw [e]
  simp only [List.length_append]
  omega

theorem complete_of (fn : DecFn) (v : Str) (rec : RecInfo) (legs : Legs) (ha : classed fn = true → Ascii v)
    (hw : fullWidth fn v.length = true) (h : meaning rec.ident fn v = none) :
    (∃ e, (runDec fn v rec legs).res = .error e) ∨ (runDec fn v rec legs).out ≠ [] ∨ Unusual fn v := by
  have hw' : widthOK fn v.length = true := by
    cases fn <;> simp_all [fullWidth, widthOK] <;> omega
  have hrej : ¬ InDomain fn v → (∃ e, (runDec fn v rec legs).res = .error e) := by
    intro hd
    rcases runDec_spec fn v rec legs hw' with ⟨h1, _⟩ | ⟨_, h2⟩
    · exact absurd h1 hd
    · exact ⟨_, h2⟩
  unfold meaning at h
  split at h
  · next t ht =>
    have he : t.fn = fn := by have := List.find?_some ht; simpa using this
    have htm := List.mem_of_find?_eq_some ht
    unfold meaningCode at h
    split at h
    · cases h
    · next hb =>
      have hb' : t.blank = true → ¬ AllSpace v := fun h1 h2 => hb (by rw [h1, blank_iff.2 h2]; rfl)
      split at h
      · cases h
      · next hd =>
        have hs := C49_otherwise htm (lookup_none hd) hb'
        cases ho : t.otherwise with
        | raises =>
          rw [ho] at hs
          have := hs rec legs
          rw [he] at this
          rw [this]; exact .inl ⟨_, rfl⟩
        | _ => rw [ho] at h; cases h
  · next hfind =>
    cases fn <;> simp only [meaningOther] at h
    case ident n => cases h
    case f007 => split at h <;> cases h
    case f008 =>
      split at h
      · cases h
      · next hn => exact .inl (hrej fun hd => hn (wordOf_true.2 ((isAlnum_iff (ascii_strip (ha rfl))).1 hd)))
    case f009 => cases h
    case f010 | f017 =>
      simp only [fullWidth, decide_eq_true_eq] at hw
      match v, hw, h with
      | a :: b :: c :: d :: _, _, h => cases h
    case f012 => split at h <;> cases h
    case f016 => cases h
    case f021 =>
      split at h
      · cases h
      · next hb =>
        split at h
        · cases h
        · split at h
          · cases h
          · next hn =>
            refine .inl (hrej fun hd => ?_)
            rcases hd with hd | hd
            · exact hb (blank_iff.2 hd)
            · exact hn (wordOf_false.2 ((isAlpha_iff (ascii_strip (ha rfl))).1 hd))
    case f022 =>
      split at h
      · cases h
      · next hn =>
        simp only [Bool.or_eq_true, not_or] at hn
        refine .inl (hrej fun hd => ?_)
        rcases hd with hd | hd
        · exact hn.1 (blank_iff.2 hd)
        · exact hn.2 (wordOf_false.2 ((isAlpha_iff (ascii_strip (ha rfl))).1 hd))
    case f023 | f024 | f025 =>
      split at h
      · cases h
      · next hn =>
        simp only [Bool.or_eq_true, Bool.and_eq_true, decide_eq_true_eq, not_or] at hn
        refine .inl (hrej fun hd => ?_)
        rcases hd with hd | ⟨hd, hd'⟩
        · exact hn.1 (blank_iff.2 hd)
        · exact hn.2 ⟨wordOf_true.2 ((isAlnum_iff (ascii_strip (ha rfl))).1 hd), hd'⟩
    case f026 =>
      by_cases hd : InDomain .f026 v
      · split at h
        · cases h
        · next hb =>
          rcases hd with hd | ⟨hd1, hd2, hd3⟩
          · exact absurd (blank_iff.2 hd) hb
          · rw [if_pos hd2] at h
            split at h
            · cases h
            · next hn =>
              rcases hd3 with hd3 | hd3
              · rw [if_pos] at h
                · cases h
                · rw [wordOf_true.2 ((isAlnum_iff (ascii_strip (ha rfl))).1 hd1), hd3]; rfl
              · exact .inr (.inr ⟨hd3, hn⟩)
      · exact .inl (hrej hd)
    case f027 =>
      by_cases hd : InDomain .f027 v
      · split at h
        · cases h
        · next hb =>
          rcases hd with hd | hd
          · exact absurd (blank_iff.2 hd) hb
          · rw [if_pos (by have := strip_length_le v; simp only [fullWidth, decide_eq_true_eq] at hw; omega)] at h
            right; right
            split at h
            · cases h
            · next hn =>
              split at h
              · next w hsw =>
                rw [hsw] at hd
                refine ⟨w, .inr hsw, hd, ?_⟩
                cases hnw : number w with
                | none => rfl
                | some n => rw [hnw] at h; cases h
              · next hsw =>
                rw [if_neg] at hd
                · exact ⟨_, .inl rfl, hd, hn⟩
                · intro h0
                  cases hs : strip v with
                  | nil => rw [hs] at h0; cases h0
                  | cons c w => rw [hs] at h0; cases h0; exact hsw w hs
      · exact .inl (hrej hd)
    case f032 =>
      by_cases hd : InDomain .f032 v
      · simp only [fullWidth, decide_eq_true_eq] at hw
        rw [if_pos hw] at h
        refine .inr (.inr ⟨hd, ?_⟩)
        cases hn : number (v.take 2) with
        | none => rfl
        | some n => rw [hn] at h; cases h
      · exact .inl (hrej hd)
    case f034 =>
      split at h
      · cases h
      · next hb =>
        rw [if_pos (by have := strip_length_le v; simp only [fullWidth, decide_eq_true_eq] at hw; omega)] at h
        refine .inl (hrej fun hd => ?_)
        rcases hd with hd | ⟨hd, _⟩
        · exact hb (blank_iff.2 hd)
        · obtain ⟨n, hn⟩ := number_of_isNumeric (ascii_strip (ha rfl)) hd
          rw [hn] at h; cases h
    case f039 =>
      by_cases hd : InDomain .f039 v
      · split at h
        · cases h
        · next hb =>
          rcases hd with hd | hd
          · exact absurd (blank_iff.2 hd) hb
          · simp only [fullWidth, Bool.and_eq_true, decide_eq_true_eq] at hw
            match v, hw, h, hd with
            | c :: w, hw, h, hd =>
              simp only at h
              rw [if_pos (by simp at hw; omega)] at h
              refine .inr (.inr ⟨hd, ?_⟩)
              cases hn : number w with
              | none => exact hn
              | some n => rw [hn] at h; cases h
      · exact .inl (hrej hd)
    case f042 =>
      simp only [fullWidth, decide_eq_true_eq] at hw
      split at h
      · cases h
      · match v, hw, h with
        | a :: b :: _, _, h =>
          simp only [meaningTwo] at h
          repeat' split at h
          all_goals cases h
    case f196 =>
      simp only [fullWidth, decide_eq_true_eq] at hw
      match v, hw, h with
      | a :: b :: _, _, h =>
        simp only [meaningTwo] at h
        repeat' split at h
        all_goals cases h
    case f043 => cases h
    case f045 | f103 | f062 | f135 =>
      simp only [fullWidth, decide_eq_true_eq] at hw
      split at h
      · rw [if_pos hw] at h; cases h
      · cases h
    case f029 | f030 | f048 | f050 | f053 | f073 | f086 | f092 | f123 | f127 | f147 | f161 | f184 | f209 | f240 =>
      cases h
    case f054 => repeat' split at h
                 all_goals cases h
    case f065 =>
      split at h
      · cases h
      · next hb =>
        have : ¬ ∃ a b rest, v = a :: b :: rest ∧ (48 ≤ a ∧ a ≤ 57) ∧ 48 ≤ b ∧ b ≤ 57 := by
          rintro ⟨a, b, rest, rfl, h1, h2⟩
          have n1 : number [a] = some (a - 48) := by simp [number, h1, digitSum]
          have n2 : number [b] = some (b - 48) := by simp [number, h2, digitSum]
          simp only [n1, n2] at h
          cases h
        obtain ⟨e, he⟩ := C48_invalid (ha rfl) (fun hv => hb (blank_iff.2 hv)) this rec legs
        rw [he]; exact .inr (.inl (by simp))
    case f072 =>
      split at h
      · cases h
      · next hn =>
        split at h
        · cases h
        · next hb =>
          refine .inl (hrej fun hd => ?_)
          rcases hd with hd | hd
          · obtain ⟨n, hn'⟩ := number_of_isNumeric (ha rfl) hd
            exact hn (by rw [hn']; rfl)
          · exact hb (blank_iff.2 hd)
    case f082 =>
      simp only [fullWidth, decide_eq_true_eq] at hw
      match v, hw, h with
      | a :: b :: rest, _, h =>
        simp only at h
        obtain ⟨_, _, h3⟩ := C61_waypoint_usage a b rest
        split at h
        · cases h
        · next hn =>
          split at h
          · cases h
          · next ha' => rw [h3 (lookup_none hn) ha' rec legs]; exact .inl ⟨_, rfl⟩
    case f118 =>
      simp only [fullWidth, decide_eq_true_eq] at hw
      match v, hw, h with
      | a :: b :: rest, _, h =>
        simp only at h
        obtain ⟨_, _, h3⟩ := C61_boundary_via a b rest
        cases hn : boundaryVias.lookup [a] with
        | some s => rw [hn] at h; cases h
        | none => rw [h3 (lookup_none hn) rec legs]; exact .inr (.inl (by simp))
    case f178 =>
      simp only [fullWidth, decide_eq_true_eq] at hw
      match v, hw, h with
      | c :: w, _, h =>
        simp only at h
        split at h
        · next hc =>
          simp only [Bool.and_eq_true] at hc
          split at h
          · cases h
          · next h1 =>
            split at h
            · cases h
            · next h2 =>
              refine .inl (hrej fun hd => ?_)
              have hcol : col (c :: w) 0 = [c] := rfl
              obtain ⟨c', h3, h4, h5⟩ := hd
                (by rw [hcol]; exact (isAlpha_iff (fun x hx => (ha rfl) x (by simp_all))).2 (wordOf_false.1 hc.1))
                (by obtain ⟨n, hn⟩ := number_isSome.1 hc.2; exact isNumeric_digits (numeral_digits hn))
              simp only [List.head?_cons, Option.some.injEq] at h3
              omega
        · cases h
    case f269 =>
      by_cases hd : InDomain .f269 v
      · split at h
        · cases h
        · next hb =>
          rcases hd with hd | hd
          · exact absurd (blank_iff.2 hd) hb
          · simp only [fullWidth, decide_eq_true_eq] at hw
            rw [if_pos hw] at h
            refine .inr (.inr ⟨hd, ?_⟩)
            cases hn : number v with
            | none => rfl
            | some n => rw [hn] at h; cases h
      · exact .inl (hrej hd)
    all_goals exact absurd hfind (by decide +kernel)

/-- C74: a value of ASCII characters without a meaning is rejected or reported, or its number is written in
    an unusual way. -/
theorem C74_complete (fn : DecFn) (v : Str) (rec : RecInfo) (legs : Legs) (ha : Ascii v)
    (hw : fullWidth fn v.length = true) (h : meaning rec.ident fn v = none) :
    (∃ e, (runDec fn v rec legs).res = .error e) ∨ (runDec fn v rec legs).out ≠ [] ∨ Unusual fn v :=
  complete_of fn v rec legs (fun _ => ha) hw h

/-- C74: so, numbers written in unusual ways aside, a field has a meaning exactly if it is decoded without
    complaint. -/
theorem C74_iff (fn : DecFn) (v : Str) (rec : RecInfo) {legs : Legs} (hl : Grown legs) (ha : Ascii v)
    (hw : fullWidth fn v.length = true) (hu : ¬ Unusual fn v) :
    (∃ x, meaning rec.ident fn v = some x) ↔
      (∃ y, (runDec fn v rec legs).res = .ok y) ∧ (runDec fn v rec legs).out = [] := by
  constructor
  · rintro ⟨x, hx⟩
    obtain ⟨h1, h2⟩ := C74_meaning fn v rec hl ha (fun n hn => by
      subst hn; simpa [fullWidth] using hw) hx
    obtain ⟨y, hy⟩ := value_ok x
    exact ⟨⟨y, h1.trans hy⟩, h2⟩
  · rintro ⟨⟨y, hy⟩, ho⟩
    cases hm : meaning rec.ident fn v with
    | some x => exact ⟨x, rfl⟩
    | none =>
      rcases C74_complete fn v rec legs ha hw hm with ⟨e, he⟩ | h | h
      · rw [he] at hy; cases hy
      · exact absurd ho h
      · exact absurd h hu

end

/-! ## Non-vacuity -/

section
attribute [local instance] Py.Tables.cpython311

/-- C74 (hypotheses are met): a magnetic variation, a course, a height of zero, a code, a speed -/
example : meaning (py!"PA") .f039 (py!"E0190") = some (.text (py!"190 E")) ∧
    meaning (py!"PD") .f026 (py!"1234") = some (.text (py!"123.4")) ∧
    meaning (py!"PD") .f026 (py!"123T") = some (.text (py!"123T")) ∧
    meaning (py!"PA") .f073 (py!"0000") = some (.text (py!" ft")) ∧
    meaning (py!"PD") .f020 (py!"L") = some (.text (py!"Left")) ∧
    meaning (py!"EP") .f062 (py!"1300") = some (.tenths 1300) ∧
    meaning (py!"EP") .f065 (py!"15") = some (.text (py!"1m 30s")) ∧
    Ascii (py!"E0190") ∧ fullWidth .f039 5 = true := by unfold Ascii; decide +kernel

/-- without a meaning: rejected, reported, unusual -/
example : meaning (py!"PD") .f020 (py!"X") = none ∧ meaning (py!"EP") .f065 (py!"x5") = none ∧
    meaning (py!"PD") .f026 (py!"1e3") = none ∧ number (py!"1e3") = none ∧
    (runDec .f026 (py!"1e3") ⟨py!"PD", []⟩ legTypeDesc).res = .ok (.str (py!"100.0")) := by decide +kernel

end
end Arinc
