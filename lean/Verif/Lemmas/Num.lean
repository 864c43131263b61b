import Verif.Py.Num
import Verif.Lemmas.Str
/-! Helper lemmas: `int` and `float` of digit strings. -/
namespace Py

/-- non-empty string of ASCII digits -/
def Digits (s : Str) : Prop := s ≠ [] ∧ ∀ c ∈ s, isDigit c = true

theorem isDigit_iff {c : Nat} : isDigit c = true ↔ 48 ≤ c ∧ c ≤ 57 := by
  simp [isDigit]

theorem digit_not_cSpace {c : Nat} (h : isDigit c = true) : cSpace c = false := by
  rw [isDigit_iff] at h
  simp only [cSpace, Bool.or_eq_false_iff, Bool.and_eq_false_imp, decide_eq_true_eq,
    decide_eq_false_iff_not, beq_eq_false_iff_ne]
  omega

theorem digit_not_space {c : Nat} (h : isDigit c = true) : isSpace c = false := by
  rw [isDigit_iff] at h
  have : ∀ c, 48 ≤ c → c ≤ 57 → isSpace c = false := by
    intro c h1 h2
    have : c = 48 ∨ c = 49 ∨ c = 50 ∨ c = 51 ∨ c = 52 ∨ c = 53 ∨ c = 54 ∨ c = 55 ∨ c = 56 ∨ c = 57 := by
      omega
    rcases this with rfl | rfl | rfl | rfl | rfl | rfl | rfl | rfl | rfl | rfl <;> rfl
  exact this c h.1 h.2

theorem dropWhile_none {p : Nat → Bool} {s : Str} (h : ∀ c ∈ s, p c = false) : s.dropWhile p = s := by
  cases s with
  | nil => rfl
  | cons c s => rw [List.dropWhile_cons, h c (by simp)]; rfl

theorem cStrip_digits {s : Str} (h : ∀ c ∈ s, isDigit c = true) : cStrip s = s := by
  unfold cStrip
  rw [dropWhile_none (fun c hc => digit_not_cSpace (h c hc)),
    dropWhile_none (fun c hc => digit_not_cSpace (h c (List.mem_reverse.1 hc))), List.reverse_reverse]

theorem strip_digits {s : Str} (h : ∀ c ∈ s, isDigit c = true) : strip s = s := by
  unfold strip rstrip lstrip
  rw [dropWhile_none (fun c hc => digit_not_space (h c hc)),
    dropWhile_none (fun c hc => digit_not_space (h c (List.mem_reverse.1 hc))), List.reverse_reverse]

theorem takeSign_digits {s : Str} (h : ∀ c ∈ s, isDigit c = true) : takeSign s = (false, s) := by
  unfold takeSign
  split
  · exact absurd (h 45 (by simp)) (by decide)
  · exact absurd (h 43 (by simp)) (by decide)
  · rfl

theorem dropUnderscores_digits {s : Str} (h : ∀ c ∈ s, isDigit c = true) :
    ∀ p, p ≠ 95 → dropUnderscores p s = some s := by
  induction s with
  | nil => intro p hp; simp [dropUnderscores, hp]
  | cons c s ih =>
    intro p hp
    have hc := isDigit_iff.1 (h c (by simp))
    have h1 : (c == 95) = false := by simp; omega
    have h2 : (p == 95) = false := by simpa using hp
    simp only [dropUnderscores, h1, h2, Bool.false_and, Bool.false_eq_true, if_false]
    rw [ih (fun d hd => h d (by simp [hd])) c (by omega)]
    rfl

section
variable [PyUnicode]

theorem toAscii_lt {c : Nat} (h : c < 127) : toAscii c = c := by simp [toAscii, h]

theorem map_toAscii_digits {s : Str} (h : ∀ c ∈ s, isDigit c = true) : s.map toAscii = s := by
  have : s.map toAscii = s.map id := by
    apply List.map_congr_left
    intro c hc
    have := isDigit_iff.1 (h c hc)
    exact toAscii_lt (by omega)
  simpa using this

theorem pyInt_digits {s : Str} (h : Digits s) (hl : s.length ≤ 4300) :
    pyInt s = .ok (digitsVal s : Int) := by
  unfold pyInt
  simp only [map_toAscii_digits h.2, cStrip_digits h.2, takeSign_digits h.2,
    dropUnderscores_digits h.2 0 (by omega)]
  have h1 : (!s.isEmpty && s.all isDigit && decide (s.length ≤ maxStrDigits)) = true := by
    simp only [Bool.and_eq_true, Bool.not_eq_true', List.isEmpty_eq_false_iff, List.all_eq_true,
      decide_eq_true_eq]
    exact ⟨⟨h.1, h.2⟩, hl⟩
  rw [if_pos h1]
  rfl

omit [PyUnicode] in
theorem takeWhile_all {p : Nat → Bool} {s : Str} (h : ∀ c ∈ s, p c = true) :
    s.takeWhile p = s ∧ s.dropWhile p = [] := by
  induction s with
  | nil => exact ⟨rfl, rfl⟩
  | cons c s ih =>
    obtain ⟨a, b⟩ := ih (fun d hd => h d (by simp [hd]))
    rw [List.takeWhile_cons, List.dropWhile_cons, h c (by simp)]
    simp [a, b]

omit [PyUnicode] in
theorem parseDecimal_digits {s : Str} (h : Digits s) : parseDecimal s = some (digitsVal s, 0) := by
  unfold parseDecimal
  obtain ⟨a, b⟩ := takeWhile_all h.2
  simp only [a, b]
  have : s.isEmpty = false := by simpa using h.1
  simp [this, parseExp]

omit [PyUnicode] in
theorem lower_digits {s : Str} (h : ∀ c ∈ s, isDigit c = true) : s.map asciiLower = s := by
  have : s.map asciiLower = s.map id := by
    apply List.map_congr_left
    intro c hc
    have := isDigit_iff.1 (h c hc)
    simp only [asciiLower, id]
    rw [if_neg]
    simp
    omega
  simpa using this

theorem pyFloat_digits {s : Str} (h : Digits s) :
    pyFloat s = .ok (roundDbl false (digitsVal s) 1) := by
  unfold pyFloat
  simp only [map_toAscii_digits h.2, cStrip_digits h.2, dropUnderscores_digits h.2 0 (by omega),
    takeSign_digits h.2, lower_digits h.2, parseDecimal_digits h]
  have h1 : ∀ t : Str, 102 ∈ t → ¬ s = t := by
    intro t ht e
    subst e
    exact absurd (h.2 _ ht) (by decide)
  have h2 : ∀ t : Str, 110 ∈ t → ¬ s = t := by
    intro t ht e
    subst e
    exact absurd (h.2 _ ht) (by decide)
  rw [if_neg (by simp only [Bool.or_eq_true, decide_eq_true_eq, not_or]; exact ⟨h1 _ (by decide), h1 _ (by decide)⟩),
    if_neg (h2 _ (by decide))]
  simp [decDbl]

theorem numeric_ascii_digits {s : Str} (ha : ∀ c ∈ s, c < 128) : isNumeric s = true ↔ Digits s := by
  simp only [isNumeric, Bool.and_eq_true, Bool.not_eq_true', List.isEmpty_eq_false_iff,
    List.all_eq_true, Digits]
  constructor
  · rintro ⟨h1, h2⟩
    refine ⟨h1, fun c hc => ?_⟩
    have := h2 c hc
    rw [PyUnicode.numeric_ascii c (ha c hc)] at this
    exact this
  · rintro ⟨h1, h2⟩
    refine ⟨h1, fun c hc => ?_⟩
    rw [PyUnicode.numeric_ascii c (ha c hc)]
    exact h2 c hc

omit [PyUnicode] in
theorem digits_ascii {s : Str} (h : Digits s) : ∀ c ∈ s, c < 128 := by
  intro c hc
  have := isDigit_iff.1 (h.2 c hc)
  omega

theorem isNumeric_digits {s : Str} (h : Digits s) : isNumeric s = true :=
  (numeric_ascii_digits (digits_ascii h)).2 h

end
end Py
