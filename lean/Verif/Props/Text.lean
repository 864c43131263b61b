import Verif.Lemmas.Text
import Verif.Py.Cpython311
/-!
# C64: fields that are text with a required form

With C41 - C49, C54, C56, C60 and C61 this gives the decoded text of every field type.
-/
namespace Arinc
open Py Spec

section
variable [PyUnicode]

/-! ## C64 route identifiers -/

/-- C64: a route identifier (5.8, 5.9) of letters and digits, perhaps with blanks around it, is shown as
    it is, blanks included. -/
theorem C64_route_identifier {fn : DecFn} (hf : fn ∈ [DecFn.f008, .f009]) {v w : Str} (hp : Padded v w)
    (hw : LettersDigits w) : Shows fn v v := by
  have h : isAlnum (strip v) = true := by
    rw [strip_word hp hw]; exact (isAlnum_iff (lettersDigits_ascii hw)).2 hw
  intro rec legs
  simp only [List.mem_cons, List.not_mem_nil, or_false] at hf
  rcases hf with rfl | rfl
  · refine congrArg (quiet legs) (?_ : field_008 v = ret v)
    unfold field_008; rw [if_pos h]
  · refine congrArg (quiet legs) (?_ : field_009 v = ret v)
    unfold field_009; rw [if_pos h]

/-- C64: any other route identifier raises (5.8) or decodes to no value (5.9). -/
theorem C64_route_identifier_otherwise {v : Str} (ha : Ascii v) (h : ¬ ∃ w, Padded v w ∧ LettersDigits w) :
    Rejects .f008 v ∧ ∀ rec legs, runDec .f009 v rec legs = ⟨.ok .none, [], legs⟩ := by
  have h0 : ¬ isAlnum (strip v) = true := fun hc =>
    h ⟨_, padded_strip v, (isAlnum_iff (ascii_strip ha)).1 hc⟩
  constructor
  · intro rec legs
    refine congrArg (quiet legs) (?_ : field_008 v = .error .valueError)
    unfold field_008; rw [if_neg h0]
  · intro rec legs
    refine congrArg (quiet legs) (?_ : field_009 v = .ok .none)
    unfold field_009; rw [if_neg h0]

/-! ## C64 trimmed texts -/

/-- C64: the trimmed fields show their text without the blanks around it. -/
theorem C64_trimmed {fn : DecFn} (hf : fn ∈ trimmedFields) {v w : Str} (hp : Padded v w)
    (hw : TrimmedOK fn w) : Shows fn v w := by
  intro rec legs
  have hs := strip_word hp (trimmed_word hw)
  have ha := lettersDigits_ascii (trimmed_word hw)
  rw [trimmed_eq hf]
  refine congrArg (quiet legs) (?_ : trimmedRes fn v = ret w)
  unfold trimmedRes
  rw [hs, if_neg (trimmed_word hw).1, if_pos ((trimmedOK_iff ha).2 hw)]

/-- C64: blank, they show the empty text. -/
theorem C64_trimmed_blank {fn : DecFn} (hf : fn ∈ trimmedFields) {v : Str} (hv : AllSpace v) :
    Shows fn v [] := by
  intro rec legs
  rw [trimmed_eq hf]
  refine congrArg (quiet legs) (?_ : trimmedRes fn v = ret [])
  unfold trimmedRes
  rw [if_pos (strip_nil_iff.2 hv)]

/-- C64: anything else raises. -/
theorem C64_trimmed_otherwise {fn : DecFn} (hf : fn ∈ trimmedFields) {v : Str} (ha : Ascii v)
    (hb : ¬ AllSpace v) (h : ¬ ∃ w, Padded v w ∧ TrimmedOK fn w) : Rejects fn v := by
  intro rec legs
  rw [trimmed_eq hf]
  refine congrArg (quiet legs) (?_ : trimmedRes fn v = .error .valueError)
  unfold trimmedRes
  rw [if_neg (fun h0 => hb (strip_nil_iff.1 h0)),
    if_neg (fun hc => h ⟨_, padded_strip v, (trimmedOK_iff (ascii_strip ha)).1 hc⟩)]

/-- C64: names (5.43) show their text without the blanks around it, whatever it is. -/
theorem C64_name {v w : Str} (hp : Padded v w) (h1 : ∀ c, w.head? = some c → isSpace c = false)
    (h2 : ∀ c, w.getLast? = some c → isSpace c = false) : Shows .f043 v w := by
  intro rec legs
  refine congrArg (quiet legs) (?_ : field_043 v = ret w)
  unfold field_043
  rw [strip_of_padded hp h1 h2]

/-! ## C64 numbers -/

/-- C64: speed limits: digits are shown with the unit, blanks as they are; anything else raises. -/
theorem C64_speed_limit (v : Str) :
    (∀ n, Numeral v n → Shows .f072 v (v ++ py!" knots (IAS)")) ∧ (AllSpace v → Shows .f072 v v) ∧
    (Ascii v → (¬ ∃ n, Numeral v n) → ¬ AllSpace v → Rejects .f072 v) := by
  refine ⟨fun n hn rec legs => ?_, fun hv rec legs => ?_, fun ha hn hb rec legs => ?_⟩
  · refine congrArg (quiet legs) (?_ : field_072 v = ret _)
    unfold field_072; rw [if_pos (isNumeric_digits (numeral_digits hn))]
  · refine congrArg (quiet legs) (?_ : field_072 v = ret _)
    unfold field_072
    have : isNumeric v = false := by
      cases h : isNumeric v with
      | false => rfl
      | true =>
        simp only [isNumeric, Bool.and_eq_true, Bool.not_eq_true', List.isEmpty_eq_false_iff,
          List.all_eq_true] at h
        obtain ⟨c, s, rfl⟩ := List.exists_cons_of_ne_nil h.1
        have h1 := PyUnicode.numeric_not_space c (h.2 c (by simp))
        rw [hv c (by simp)] at h1; cases h1
    rw [this, if_neg (by simp), if_pos (strip_nil_iff.2 hv)]
  · refine congrArg (quiet legs) (?_ : field_072 v = .error .valueError)
    unfold field_072
    rw [not_numeric ha hn, if_neg (by simp), if_neg (fun h0 => hb (strip_nil_iff.1 h0))]

/-- C64: localizer and communications frequencies, and the two fields in tenths that check for digits,
    show a fixed text for anything that is not a number. -/
theorem C64_bad_value {fn : DecFn} (hf : fn ∈ [DecFn.f045, .f103, .f062, .f135]) {v : Str} (ha : Ascii v)
    (hv : ¬ ∃ n, Numeral v n) : Shows fn v (py!"BAD VALUE") := by
  intro rec legs
  have h0 : ¬ isNumeric v = true := by rw [not_numeric ha hv]; simp
  simp only [List.mem_cons, List.not_mem_nil, or_false] at hf
  rcases hf with rfl | rfl | rfl | rfl
  · refine congrArg (quiet legs) (?_ : field_045 v = ret _)
    unfold field_045; rw [if_neg h0]
  · refine congrArg (quiet legs) (?_ : field_103 v = ret _)
    unfold field_103; rw [if_neg h0]
  · refine congrArg (quiet legs) (?_ : field_062 v = ret _)
    unfold field_062; rw [if_neg h0]
  · refine congrArg (quiet legs) (?_ : field_135 v = ret _)
    unfold field_135; rw [if_neg h0]

/-- C64: a blank VOR/NDB frequency shows the empty text, a blank height in tenths is shown as it is. -/
theorem C64_blank_number {v : Str} (hv : AllSpace v) : Shows .f034 v [] ∧ Shows .f269 v v := by
  constructor
  · intro rec legs
    refine congrArg (noisy legs) (?_ : field_034 v rec.ident rec.raw = (ret [], []))
    unfold field_034
    rw [strip_nil_iff.2 hv]; rfl
  · intro rec legs
    refine congrArg (quiet legs) (?_ : field_269 v = ret v)
    unfold field_269
    rw [if_neg (by rw [strip_nil_iff.2 hv]; simp)]

end

section
attribute [local instance] Py.Tables.cpython311

/-- a route identifier with blanks after it -/
example : Shows .f008 (py!"J20  ") (py!"J20  ") :=
  C64_route_identifier (fn := .f008) (by simp) (w := py!"J20")
    ⟨[], py!"  ", rfl, by simp [AllSpace], by unfold AllSpace; decide +kernel⟩
    ⟨by simp, by unfold Letter Digit; decide +kernel⟩
/-- a blank one -/
example : Rejects .f008 (py!"     ") := by
  refine (C64_route_identifier_otherwise (v := py!"     ") (by unfold Ascii; decide +kernel) ?_).1
  rintro ⟨w, hp, hw⟩
  have := strip_word hp hw
  exact hw.1 (this ▸ by decide +kernel)
example : Shows .f023 (py!"SEA ") (py!"SEA") :=
  C64_trimmed (fn := .f023) (by simp [trimmedFields]) (w := py!"SEA")
    ⟨[], py!" ", rfl, by simp [AllSpace], by unfold AllSpace; decide +kernel⟩
    (show _ ∧ _ from ⟨⟨by simp, by unfold Letter Digit; decide +kernel⟩, by decide⟩)
example : Shows .f043 (py!"SEATTLE-TACOMA INTL   ") (py!"SEATTLE-TACOMA INTL") :=
  C64_name (w := py!"SEATTLE-TACOMA INTL")
    ⟨[], py!"   ", rfl, by simp [AllSpace], by unfold AllSpace; decide +kernel⟩ (by simp; decide) (by simp; decide)
example : Shows .f072 (py!"250") (py!"250 knots (IAS)") :=
  (C64_speed_limit _).1 250 ⟨by simp, by decide, by decide⟩
example : Shows .f045 (py!"     ") (py!"BAD VALUE") :=
  C64_bad_value (fn := .f045) (by simp) (by unfold Ascii; decide +kernel)
    (by rintro ⟨n, _, h, _⟩; exact absurd (h 32 (by simp)) (by omega))

end
end Arinc
