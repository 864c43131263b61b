import Verif.Spec.Text
import Verif.Spec.Domain
import Verif.Lemmas.Value
import Verif.Lemmas.Decode
/-! Helper lemmas: letters, digits and the four trimmed fields. -/
namespace Arinc
open Py Spec
variable [PyUnicode]

theorem ascii_alpha {c : Nat} (h : c < 128) : PyUnicode.alpha c = true ↔ Letter c := by
  rw [PyUnicode.alpha_ascii c h]; simp [Letter]

theorem ascii_numeric {c : Nat} (h : c < 128) : PyUnicode.numeric c = true ↔ Digit c := by
  rw [PyUnicode.numeric_ascii c h]; simp [Digit]

omit [PyUnicode] in
theorem letter_lt {c : Nat} (h : Letter c) : c < 128 := by unfold Letter at h; omega

omit [PyUnicode] in
theorem digit_lt {c : Nat} (h : Digit c) : c < 128 := by unfold Digit at h; omega

theorem isAlpha_iff {w : Str} (ha : Ascii w) : isAlpha w = true ↔ Letters w := by
  simp only [isAlpha, Bool.and_eq_true, Bool.not_eq_true', List.isEmpty_eq_false_iff, List.all_eq_true, Letters]
  exact and_congr_right fun _ => ⟨fun h c hc => (ascii_alpha (ha c hc)).1 (h c hc),
    fun h c hc => (ascii_alpha (ha c hc)).2 (h c hc)⟩

theorem isAlnum_iff {w : Str} (ha : Ascii w) : isAlnum w = true ↔ LettersDigits w := by
  simp only [isAlnum, Bool.and_eq_true, Bool.not_eq_true', List.isEmpty_eq_false_iff, List.all_eq_true,
    LettersDigits, Bool.or_eq_true]
  exact and_congr_right fun _ =>
    ⟨fun h c hc => (h c hc).imp (ascii_alpha (ha c hc)).1 (ascii_numeric (ha c hc)).1,
     fun h c hc => (h c hc).imp (ascii_alpha (ha c hc)).2 (ascii_numeric (ha c hc)).2⟩

omit [PyUnicode] in
theorem lettersDigits_ascii {w : Str} (h : LettersDigits w) : Ascii w :=
  fun c hc => (h.2 c hc).elim letter_lt digit_lt

omit [PyUnicode] in
theorem letters_lettersDigits {w : Str} (h : Letters w) : LettersDigits w :=
  ⟨h.1, fun c hc => .inl (h.2 c hc)⟩

omit [PyUnicode] in
theorem not_space {c : Nat} (h : Letter c ∨ Digit c) : isSpace c = false := by
  have hc : c < 128 := h.elim letter_lt digit_lt
  have : ∀ c, c < 128 → (Letter c ∨ Digit c) → isSpace c = false := by
    unfold Letter Digit; decide +kernel
  exact this c hc h

omit [PyUnicode] in
theorem strip_word {v w : Str} (hp : Padded v w) (h : LettersDigits w) : strip v = w :=
  strip_of_padded hp (fun c hc => not_space (h.2 c (List.mem_of_mem_head? hc)))
    (fun c hc => not_space (h.2 c (List.mem_of_mem_getLast? hc)))

omit [PyUnicode] in
theorem ascii_strip {v : Str} (h : Ascii v) : Ascii (strip v) := fun c hc => h c (mem_of_mem_strip hc)

omit [PyUnicode] in
theorem trimmed_word {fn : DecFn} {w : Str} (h : TrimmedOK fn w) : LettersDigits w := by
  unfold TrimmedOK at h
  split at h
  · exact letters_lettersDigits h
  · exact h.1

/-- what the four functions compute -/
def trimmedRes (fn : DecFn) (v : Str) : Except Exc PyVal :=
  if strip v = [] then ret [] else
  if (if fn = .f022 then isAlpha (strip v) else isAlnum (strip v) && decide ((strip v).length ≤ 4)) = true then
    ret (strip v) else .error .valueError

theorem trimmed_eq {fn : DecFn} (hf : fn ∈ trimmedFields) (v : Str) (rec : RecInfo) (legs : Legs) :
    runDec fn v rec legs = quiet legs (trimmedRes fn v) := by
  have key : ∀ g : DecFn, g ≠ .f022 →
      (if (strip v).length > 0 then
        (if isAlnum (strip v) = false ∨ (strip v).length > 4 then .error .valueError else ret (strip v))
       else ret (strip v)) = trimmedRes g v := by
    intro g hg
    unfold trimmedRes
    rw [if_neg hg]
    by_cases h0 : strip v = []
    · rw [if_pos h0, h0]; rfl
    · rw [if_neg h0, if_pos (List.length_pos_iff.2 h0)]
      by_cases h1 : isAlnum (strip v) = true
      · by_cases h2 : (strip v).length ≤ 4
        · rw [if_neg (by rw [h1]; simp; omega), if_pos (by simp [h1, h2])]
        · rw [if_pos (.inr (by omega)), if_neg (by simp [h2])]
      · rw [if_pos (.inl (by simpa using h1)), if_neg (by simp [h1])]
  simp only [trimmedFields, List.mem_cons, List.not_mem_nil, or_false] at hf
  rcases hf with rfl | rfl | rfl | rfl
  · refine congrArg (quiet legs) (?_ : field_022 v = _)
    unfold field_022 trimmedRes
    simp only
    by_cases h0 : strip v = []
    · rw [if_pos h0, h0]; rfl
    · rw [if_neg h0, if_pos (List.length_pos_iff.2 h0)]
      cases h1 : isAlpha (strip v) <;> simp
  · exact congrArg (quiet legs) (key .f023 (by decide))
  · exact congrArg (quiet legs) (key .f024 (by decide))
  · exact congrArg (quiet legs) (key .f025 (by decide))

theorem trimmedOK_iff {fn : DecFn} {w : Str} (ha : Ascii w) :
    (if fn = .f022 then isAlpha w else isAlnum w && decide (w.length ≤ 4)) = true ↔ TrimmedOK fn w := by
  unfold TrimmedOK
  split
  · exact isAlpha_iff ha
  · rw [Bool.and_eq_true, isAlnum_iff ha, decide_eq_true_eq]

theorem not_numeric {v : Str} (ha : Ascii v) (hv : ¬ ∃ n, Numeral v n) : isNumeric v = false := by
  cases h : isNumeric v with
  | false => rfl
  | true =>
    have hd := (numeric_ascii_digits ha).1 h
    exact absurd ⟨_, hd.1, fun c hc => isDigit_iff.1 (hd.2 c hc), rfl⟩ hv

end Arinc
