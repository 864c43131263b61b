import Verif.Spec.Meaning
import Verif.Props.Text
import Verif.Props.Codes
import Verif.Props.Values
/-! Helper lemmas for `Spec/Meaning.lean`. -/
namespace Arinc
open Py Spec

theorem digitChar_toNat {n : Nat} (h : n < 10) : (Nat.digitChar n).toNat = 48 + n := by
  have : ∀ m : Fin 10, (Nat.digitChar m.1).toNat = 48 + m.1 := by decide
  exact this ⟨n, h⟩

theorem decimal_eq (n : Nat) : decimal n = natStr n := by
  refine decimal_unique ?_ (natStr_decimal n)
  induction n using Nat.strongRecOn with
  | ind n ih =>
    unfold decimal
    rw [Nat.toDigits_eq_if (by omega)]
    split
    · next h =>
      simp only [List.map_cons, List.map_nil, digitChar_toNat h]
      refine ⟨⟨by simp, ?_, by simp [digitSum]⟩, by simp⟩
      intro c hc; simp only [List.mem_singleton] at hc; omega
    · next h =>
      have := ih (n / 10) (by omega)
      unfold decimal at this
      obtain ⟨⟨h1, h2, h3⟩, h4⟩ := this
      simp only [List.map_append, List.map_cons, List.map_nil, digitChar_toNat (Nat.mod_lt n (by omega : 0 < 10))]
      refine ⟨⟨by simp, ?_, ?_⟩, ?_⟩
      · intro c hc
        rcases List.mem_append.1 hc with hc | hc
        · exact h2 c hc
        · simp only [List.mem_singleton] at hc; omega
      · rw [digitSum_append, h3]; simp [digitSum]; omega
      · intro hh
        rw [List.head?_append] at hh
        cases hd : (Nat.toDigits 10 (n / 10)).map Char.toNat with
        | nil => exact absurd hd h1
        | cons c s =>
          rw [hd] at hh h3 h4
          simp only [List.head?_cons, Option.some_or, Option.some.injEq] at hh
          subst hh
          have := h4 rfl
          rw [this] at h3
          simp [digitSum] at h3
          omega

theorem decimal_decimal (n : Nat) : Decimal (decimal n) n := by
  rw [decimal_eq]; exact natStr_decimal n

theorem fixed_fixed {d n : Nat} (hd : 0 < d) : Fixed d (fixed d n) n := by
  unfold fixed
  simp only [decimal_eq]
  exact fixed_of hd

theorem number_some {v : Str} {n : Nat} (h : number v = some n) : Numeral v n := by
  unfold number at h
  split at h
  · next hc => cases h; exact ⟨hc.1, hc.2, rfl⟩
  · cases h

theorem number_none {v : Str} (h : number v = none) : ¬ ∃ n, Numeral v n := by
  unfold number at h
  split at h
  · cases h
  · next hc => rintro ⟨n, h1, h2, _⟩; exact hc ⟨h1, h2⟩

theorem number_isSome {v : Str} : (number v).isSome = true ↔ ∃ n, Numeral v n := by
  cases h : number v with
  | none => simpa using number_none h
  | some n => simpa using ⟨n, number_some h⟩

theorem blank_iff {v : Str} : blank v = true ↔ AllSpace v := by
  unfold blank AllSpace; exact List.all_eq_true

theorem blank_false {v : Str} : blank v = false ↔ ¬ AllSpace v := by
  rw [← blank_iff, Bool.not_eq_true]

theorem wordOf_true {v : Str} : wordOf true v = true ↔ LettersDigits v := by
  unfold wordOf LettersDigits Letter Digit
  simp [or_assoc]

theorem wordOf_false {v : Str} : wordOf false v = true ↔ Letters v := by
  unfold wordOf Letters Letter
  simp

theorem digit_word {v : Str} {n : Nat} (h : Numeral v n) : LettersDigits v :=
  ⟨h.1, fun c hc => .inr (h.2.1 c hc)⟩

theorem lookup_none {α : Type} {l : List (Str × α)} {v : Str} (h : l.lookup v = none) : ∀ d, (v, d) ∉ l := by
  induction l with
  | nil => intro d hd; cases hd
  | cons p l ih =>
    intro d hd
    rw [List.lookup_cons] at h
    cases hb : v == p.1 with
    | true => rw [hb] at h; cases h
    | false =>
      rw [hb] at h
      rcases List.mem_cons.1 hd with e | hd
      · subst e; simp at hb
      · exact ih h d hd

variable [PyUnicode]

theorem value_tenths {n : Nat} : (Reading.tenths n).value = .ok (.float (roundDbl false n 10)) := by
  have hf : Fixed 1 (fixed 1 n) n := fixed_fixed (by omega)
  obtain ⟨ip, fp, he, h1, h2, h3⟩ := hf
  obtain ⟨b, rfl⟩ : ∃ b, fp = [b] := by
    cases fp with
    | nil => cases h3
    | cons b t => cases t with
      | nil => exact ⟨b, rfl⟩
      | cons _ _ => simp at h3
  have hb := isDigit_iff.2 (h2.2.1 b (by simp))
  have hv : digitsVal (ip ++ [b]) = n := by
    rw [digitsVal_eq, digitSum_append, h1.1.2.2, h2.2.2]
    simp; omega
  show (pyFloat (fixed 1 n)).map PyVal.float = _
  rw [he, pyFloat_point (numeral_digits h1.1) hb, hv]
  rfl

omit [PyUnicode] in
theorem full_width : registry.all (fun p => p.2.layouts.all fun l => l.all fun s =>
    fullWidth s.dec s.slice.columns.length) = true := by decide +kernel

theorem number_of_isNumeric {v : Str} (ha : Ascii v) (h : isNumeric v = true) :
    ∃ n, number v = some n := by
  cases hn : number v with
  | none => rw [not_numeric ha (number_none hn)] at h; cases h
  | some n => exact ⟨n, rfl⟩

end Arinc
