import Verif.Model.Summary
import Verif.Spec.Summary
import Verif.Lemmas.Json
import Verif.Lemmas.Value
/-! # Lemmas: the text of the summary -/
namespace Arinc
open Py Spec

theorem hexDigits_step (k n d : Nat) (t : Str) :
    hexDigits (k + 1) n (hexDigit (d % 16) :: t) = hexDigits k (16 * n + d % 16) t := by
  rw [hexDigits, hexVal_hexDigit (Nat.mod_lt _ (by omega))]; rfl

/-- what follows a backslash -/
theorem litChar_esc {q : Nat} (hq : q = 39 ∨ q = 34) (e : Nat) (t : Str) :
    litChar q (92 :: e :: t) =
      if e = 92 ∨ e = 39 ∨ e = 34 then some (e, t)
      else if e = 116 then some (9, t)
      else if e = 110 then some (10, t)
      else if e = 114 then some (13, t)
      else if e = 120 then hexDigits 2 0 t
      else if e = 117 then hexDigits 4 0 t
      else if e = 85 then hexDigits 8 0 t
      else none := by
  rw [litChar, if_neg (by omega), if_neg (by simp)]

theorem litChar_reprChar (printable : Nat → Bool) {q c : Nat} (hq : q = 39 ∨ q = 34) (hc : c < 0x110000) (x : Str) :
    litChar q (reprChar printable q c ++ x) = some (c, x) := by
  have plain : c ≠ q → c ≠ 92 → c ≠ 10 → litChar q ([c] ++ x) = some (c, x) := by
    intro h1 h2 h3
    simp only [List.cons_append, List.nil_append, litChar]
    rw [if_neg (by omega), if_pos h2]
  have hx : c < 256 → litChar q (xEscape c ++ x) = some (c, x) := by
    intro h
    simp only [xEscape, List.cons_append, List.nil_append]
    rw [litChar_esc hq]
    simp only [Nat.reduceEqDiff, if_false, if_true, false_or]
    rw [hexDigits_step, hexDigits_step, hexDigits, Option.some.injEq, Prod.mk.injEq]
    exact ⟨by omega, rfl⟩
  have hu : c < 65536 → litChar q (uEscape c ++ x) = some (c, x) := by
    intro h
    simp only [uEscape, List.cons_append, List.nil_append]
    rw [litChar_esc hq]
    simp only [Nat.reduceEqDiff, if_false, if_true, false_or]
    rw [hexDigits_step, hexDigits_step, hexDigits_step, hexDigits_step, hexDigits, Option.some.injEq, Prod.mk.injEq]
    exact ⟨by omega, rfl⟩
  have hU : litChar q (bigEscape c ++ x) = some (c, x) := by
    simp only [bigEscape, List.cons_append, List.nil_append]
    rw [litChar_esc hq]
    simp only [Nat.reduceEqDiff, if_false, if_true, false_or]
    rw [hexDigits_step, hexDigits_step, hexDigits_step, hexDigits_step, hexDigits_step, hexDigits_step, hexDigits_step,
      hexDigits_step, hexDigits, Option.some.injEq, Prod.mk.injEq]
    exact ⟨by omega, rfl⟩
  unfold reprChar
  split
  · rename_i h
    simp only [List.cons_append, List.nil_append]
    rw [litChar_esc hq, if_pos (by omega)]
  · rename_i h
    rw [not_or] at h
    split
    · subst c; simp [litChar_esc hq]
    · split
      · subst c; simp [litChar_esc hq]
      · rename_i h10
        split
        · subst c; simp [litChar_esc hq]
        · split
          · exact hx (by omega)
          · split
            · exact plain h.1 h.2 h10
            · split
              · exact plain h.1 h.2 h10
              · split
                · exact hx (by omega)
                · split
                  · exact hu (by omega)
                  · exact hU

theorem reprQuote_is (s : Str) : reprQuote s = 39 ∨ reprQuote s = 34 := by
  unfold reprQuote; split <;> simp

theorem litRest_repr (printable : Nat → Bool) {q : Nat} (hq : q = 39 ∨ q = 34) (x : Str) :
    ∀ s : Str, (∀ c ∈ s, c < 0x110000) → PyLitRest q (s.flatMap (reprChar printable q) ++ q :: x) s x
  | [], _ => .close x
  | c :: s, h => by
    rw [List.flatMap_cons, List.append_assoc]
    exact .char (litChar_reprChar printable hq (h c (by simp)) _)
      (litRest_repr printable hq x s fun d hd => h d (by simp [hd]))

theorem lit_repr (printable : Nat → Bool) {s : Str} (h : ∀ c ∈ s, c < 0x110000) (x : Str) :
    PyLit (reprStr printable s ++ x) s x :=
  ⟨reprQuote s, _, reprQuote_is s, by simp [reprStr], litRest_repr printable (reprQuote_is s) x s h⟩

theorem litItems_repr (printable : Nat → Bool) : ∀ (ss : List Str), ss ≠ [] → (∀ s ∈ ss, ∀ c ∈ s, c < 0x110000) →
    PyLitItems (reprElems printable ss ++ [93]) ss
  | [], h, _ => absurd rfl h
  | [s], _, h => .last (lit_repr printable (h s (by simp)) _)
  | s :: t :: ss, _, h => by
    refine .more (x := reprElems printable (t :: ss) ++ [93]) ?_
      (litItems_repr printable (t :: ss) (by simp) fun u hu => h u (by simp [hu]))
    have := lit_repr printable (h s (by simp)) ([44, 32] ++ (reprElems printable (t :: ss) ++ [93]))
    simpa [reprElems] using this

theorem litList_repr (printable : Nat → Bool) (ss : List Str) (h : ∀ s ∈ ss, ∀ c ∈ s, c < 0x110000) :
    PyLitList (91 :: (reprElems printable ss ++ [93])) ss := by
  cases ss with
  | nil => exact .empty
  | cons s ss => exact .items (litItems_repr printable _ (by simp) h)

/-! A text is a literal for one string only. -/

theorem litChar_quote (q : Nat) (x : Str) : litChar q (q :: x) = none := by simp [litChar]

theorem litRest_unique {q : Nat} {t s x : Str} (h : PyLitRest q t s x) :
    ∀ {s' x' : Str}, PyLitRest q t s' x' → s = s' ∧ x = x' := by
  induction h with
  | close x =>
    intro s' x' h'
    cases h' with
    | close => exact ⟨rfl, rfl⟩
    | char h _ => rw [litChar_quote] at h; cases h
  | char h r ih =>
    intro s' x' h'
    cases h' with
    | close => rw [litChar_quote] at h; cases h
    | char h' r' =>
      rw [h] at h'
      cases h'
      obtain ⟨rfl, rfl⟩ := ih r'
      exact ⟨rfl, rfl⟩

theorem lit_unique {t s x s' x' : Str} (h : PyLit t s x) (h' : PyLit t s' x') : s = s' ∧ x = x' := by
  obtain ⟨q, r, _, rfl, h⟩ := h
  obtain ⟨q', r', _, he, h'⟩ := h'
  cases he
  exact litRest_unique h h'

theorem litItems_unique {t : Str} {ss : List Str} (h : PyLitItems t ss) : ∀ {ss' : List Str}, PyLitItems t ss' → ss = ss' := by
  induction h with
  | last h =>
    intro ss' h'
    cases h' with
    | last h' => rw [(lit_unique h h').1]
    | more h' _ => have := (lit_unique h h').2; simp at this
  | more h r ih =>
    intro ss' h'
    cases h' with
    | last h' => have := (lit_unique h h').2; simp at this
    | more h' r' =>
      obtain ⟨rfl, hx⟩ := lit_unique h h'
      cases List.append_cancel_left hx
      rw [ih r']

theorem lit_start {t s x : Str} (h : PyLit t s x) : ∃ q r, t = q :: r ∧ (q = 39 ∨ q = 34) :=
  let ⟨q, r, hq, ht, _⟩ := h; ⟨q, r, ht, hq⟩

theorem litList_unique {t : Str} {ss ss' : List Str} (h : PyLitList t ss) (h' : PyLitList t ss') : ss = ss' := by
  have no : ∀ {ss : List Str}, ¬PyLitItems [93] ss := by
    intro ss h
    cases h with
    | last h => obtain ⟨q, r, e, hq⟩ := lit_start h; cases e; omega
    | more h _ => obtain ⟨q, r, e, hq⟩ := lit_start h; cases e; omega
  cases h with
  | empty =>
    cases h' with
    | empty => rfl
    | items h' => exact absurd h' no
  | items h =>
    cases h' with
    | empty => exact absurd h no
    | items h' => exact litItems_unique h h'

/-! The count in front. -/

theorem split_at_space : ∀ {a b x y : Str}, (∀ c ∈ a, c ≠ 32) → (∀ c ∈ b, c ≠ 32) →
    a ++ 32 :: x = b ++ 32 :: y → a = b ∧ x = y
  | [], [], _, _, _, _, h => ⟨rfl, by simpa using h⟩
  | [], d :: b, _, _, _, hb, h => by simp at h; exact absurd h.1.symm (hb d (by simp))
  | c :: a, [], _, _, ha, _, h => by simp at h; exact absurd h.1 (ha c (by simp))
  | c :: a, d :: b, x, y, ha, hb, h => by
    simp only [List.cons_append, List.cons.injEq] at h
    obtain ⟨rfl, h2⟩ := split_at_space (fun e he => ha e (by simp [he])) (fun e he => hb e (by simp [he])) h.2
    exact ⟨by rw [h.1], h2⟩

theorem natStr_inj {n m : Nat} (h : natStr n = natStr m) : n = m := by
  rw [← (natStr_decimal n).1.2.2, ← (natStr_decimal m).1.2.2, h]

theorem natStr_no_space (n : Nat) : ∀ c ∈ natStr n, c ≠ 32 := by
  intro c hc
  have := (natStr_decimal n).1.2.1 c hc
  omega

theorem summary_front {n m : Nat} {x y : Str}
    (h : py!"Found " ++ natStr n ++ py!" records that contain " ++ x =
      py!"Found " ++ natStr m ++ py!" records that contain " ++ y) : n = m ∧ x = y := by
  rw [List.append_assoc, List.append_assoc, List.append_assoc, List.append_assoc] at h
  have h1 := List.append_cancel_left h
  obtain ⟨h2, h3⟩ := split_at_space (natStr_no_space n) (natStr_no_space m) h1
  refine ⟨natStr_inj h2, ?_⟩
  exact List.append_cancel_left (as := py!"records that contain ") h3

/-! Which characters are shown. -/

/-- a character that takes its place on a line -/
abbrev OnLine (printable : Nat → Bool) (c : Nat) : Prop := (32 ≤ c ∧ c ≤ 126) ∨ (127 < c ∧ printable c = true)

theorem hexDigit_onLine (printable : Nat → Bool) (n : Nat) : OnLine printable (hexDigit (n % 16)) := by
  left; unfold hexDigit; split <;> omega

theorem reprChar_onLine (printable : Nat → Bool) {q : Nat} (hq : q = 39 ∨ q = 34) (c : Nat) :
    ∀ d ∈ reprChar printable q c, OnLine printable d := by
  have lo : ∀ {d : Nat}, 32 ≤ d → d ≤ 126 → OnLine printable d := fun h1 h2 => .inl ⟨h1, h2⟩
  have h92 : OnLine printable 92 := lo (by omega) (by omega)
  unfold reprChar
  split
  · rename_i h
    simp only [List.forall_mem_cons]
    exact ⟨h92, lo (by omega) (by omega), by simp⟩
  · repeat' split
    all_goals
      simp only [xEscape, uEscape, bigEscape, List.forall_mem_cons]
      refine ⟨?_, ?_⟩
    all_goals first
      | exact h92
      | exact lo (by omega) (by omega)
      | (rename_i h; exact .inr ⟨by omega, h⟩)
      | simp only [List.not_mem_nil, false_implies, implies_true, and_true, hexDigit_onLine]
    all_goals exact lo (by omega) (by omega)

theorem reprStr_onLine (printable : Nat → Bool) (s : Str) : ∀ d ∈ reprStr printable s, OnLine printable d := by
  have hq : OnLine printable (reprQuote s) := by
    rcases reprQuote_is s with h | h <;> rw [h] <;> exact .inl (by omega)
  intro d hd
  simp only [reprStr, List.mem_cons, List.mem_append, List.mem_flatMap, List.not_mem_nil, or_false] at hd
  rcases hd with rfl | ⟨c, _, hc⟩ | rfl
  · exact hq
  · exact reprChar_onLine printable (reprQuote_is s) c d hc
  · exact hq

theorem reprElems_onLine (printable : Nat → Bool) : ∀ (ss : List Str), ∀ d ∈ reprElems printable ss,
    OnLine printable d := by
  intro ss
  induction ss with
  | nil => simp [reprElems]
  | cons s ss ih =>
    cases ss with
    | nil => exact reprStr_onLine printable s
    | cons t ss =>
      intro d hd
      simp only [reprElems, List.mem_append, List.mem_cons, List.not_mem_nil, or_false] at hd
      rcases hd with (hd | rfl | rfl) | hd
      · exact reprStr_onLine printable s d hd
      · exact .inl (by omega)
      · exact .inl (by omega)
      · exact ih d hd

theorem reprStr_plain (printable : Nat → Bool) {s : Str} (h : ∀ c ∈ s, OnLine printable c ∧ c ≠ 39 ∧ c ≠ 92) :
    reprStr printable s = 39 :: (s ++ [39]) := by
  have hq : reprQuote s = 39 := if_neg (fun hh => (h 39 hh.1).2.1 rfl)
  rw [reprStr, hq]
  have : s.flatMap (reprChar printable 39) = s := by
    clear hq
    induction s with
    | nil => rfl
    | cons c s ih =>
      rw [List.flatMap_cons, ih (fun d hd => h d (by simp [hd]))]
      obtain ⟨h1, h2, h3⟩ := h c (by simp)
      unfold reprChar
      rw [if_neg (by omega), if_neg (by omega), if_neg (by omega), if_neg (by omega), if_neg (by omega)]
      split
      · rfl
      · have : printable c = true := by
          rcases h1 with h1 | h1
          · omega
          · exact h1.2
        rw [if_pos this]; rfl
  rw [this]

end Arinc
