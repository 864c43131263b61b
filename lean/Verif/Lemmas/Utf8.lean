import Verif.Py.Utf8
import Verif.Spec.Utf8
/-!
# Decoding of UTF-8 is right
-/
namespace Py
open Spec

theorem isCont_iff {b : Nat} : isCont b = true ↔ 128 ≤ b ∧ b < 192 := by
  simp [isCont]

theorem utf8_sound : ∀ (n : Nat) (b : List Nat), b.length ≤ n → ∀ s, utf8Decode b = some s → Utf8 s b := by
  intro n
  induction n with
  | zero =>
    intro b hb s h
    cases b with
    | nil => unfold utf8Decode at h; cases h; exact .nil
    | cons _ _ => simp at hb
  | succ n ih =>
    intro b hb s h
    cases b with
    | nil => unfold utf8Decode at h; cases h; exact .nil
    | cons b r =>
      simp only [List.length_cons] at hb
      unfold utf8Decode at h
      split at h
      · next h1 =>
        obtain ⟨t, ht, rfl⟩ := Option.map_eq_some_iff.1 h
        exact .cons (.one h1) (ih r (by omega) t ht)
      · split at h
        · cases h
        · split at h
          · split at h
            · next b1 r =>
              split at h
              · next hc =>
                rw [isCont_iff] at hc
                obtain ⟨t, ht, rfl⟩ := Option.map_eq_some_iff.1 h
                simp only [List.length_cons] at hb
                have hu := Utf8.cons (c := b * 64 + b1 - (0xC0 * 64 + 0x80)) (.two (by omega) (by omega))
                  (ih r (by omega) t ht)
                have e1 : 0xC0 + (b * 64 + b1 - (0xC0 * 64 + 0x80)) / 64 = b := by omega
                have e2 : 0x80 + (b * 64 + b1 - (0xC0 * 64 + 0x80)) % 64 = b1 := by omega
                rw [e1, e2] at hu
                exact hu
              · cases h
            · cases h
          · split at h
            · split at h
              · next b1 b2 r =>
                split at h
                · cases h
                · next hc1 =>
                  split at h
                  · cases h
                  · split at h
                    · cases h
                    · split at h
                      · cases h
                      · next hc2 =>
                        rw [Bool.not_eq_false, isCont_iff] at hc1 hc2
                        obtain ⟨t, ht, rfl⟩ := Option.map_eq_some_iff.1 h
                        simp only [List.length_cons] at hb
                        generalize hc : b * 4096 + b1 * 64 + b2 - (0xE0 * 4096 + 0x80 * 64 + 0x80) = c
                        have hu := Utf8.cons (c := c) (.three (by omega) (by omega) (by omega)) (ih r (by omega) t ht)
                        have e1 : 0xE0 + c / 4096 = b := by omega
                        have e2 : 0x80 + c / 64 % 64 = b1 := by omega
                        have e3 : 0x80 + c % 64 = b2 := by omega
                        rw [e1, e2, e3] at hu
                        exact hu
              · cases h
            · split at h
              · split at h
                · next b1 b2 b3 r =>
                  split at h
                  · cases h
                  · next hc1 =>
                    split at h
                    · cases h
                    · split at h
                      · cases h
                      · split at h
                        · cases h
                        · next hc2 =>
                          rw [not_or, Bool.not_eq_false, Bool.not_eq_false, isCont_iff, isCont_iff] at hc2
                          rw [Bool.not_eq_false, isCont_iff] at hc1
                          obtain ⟨t, ht, rfl⟩ := Option.map_eq_some_iff.1 h
                          simp only [List.length_cons] at hb
                          generalize hc : b * 262144 + b1 * 4096 + b2 * 64 + b3 -
                            (0xF0 * 262144 + 0x80 * 4096 + 0x80 * 64 + 0x80) = c
                          have hu := Utf8.cons (c := c) (.four (by omega) (by omega)) (ih r (by omega) t ht)
                          have e1 : 0xF0 + c / 262144 = b := by omega
                          have e2 : 0x80 + c / 4096 % 64 = b1 := by omega
                          have e3 : 0x80 + c / 64 % 64 = b2 := by omega
                          have e4 : 0x80 + c % 64 = b3 := by omega
                          rw [e1, e2, e3, e4] at hu
                          exact hu
                · cases h
              · cases h

theorem utf8_complete {s : Str} {b : List Nat} (h : Utf8 s b) : utf8Decode b = some s := by
  induction h with
  | nil => unfold utf8Decode; rfl
  | @cons c s bs b h t ih =>
    cases h with
    | one h =>
      rw [List.cons_append, List.nil_append, utf8Decode.eq_def]
      simp only
      rw [if_pos h, ih]; rfl
    | two h h' =>
      rw [List.cons_append, List.cons_append, List.nil_append, utf8Decode.eq_def]
      simp only
      rw [if_neg (by omega), if_neg (by omega),
        if_pos (by omega)]
      rw [if_pos (isCont_iff.2 (by omega)), ih]
      simp only [Option.map_some, Option.some.injEq, List.cons.injEq, and_true]
      omega
    | three h h' hs =>
      rw [List.cons_append, List.cons_append, List.cons_append, List.nil_append, utf8Decode.eq_def]
      simp only
      rw [if_neg (by omega),
        if_neg (by omega), if_neg (by omega), if_pos (by omega)]
      rw [if_neg (by rw [Bool.not_eq_false, isCont_iff]; omega), if_neg (by omega), if_neg (by omega),
        if_neg (by rw [Bool.not_eq_false, isCont_iff]; omega), ih]
      simp only [Option.map_some, Option.some.injEq, List.cons.injEq, and_true]
      omega
    | four h h' =>
      rw [List.cons_append, List.cons_append, List.cons_append, List.cons_append, List.nil_append, utf8Decode.eq_def]
      simp only
      rw [if_neg (by omega), if_neg (by omega), if_neg (by omega), if_neg (by omega), if_pos (by omega)]
      rw [if_neg (by rw [Bool.not_eq_false, isCont_iff]; omega), if_neg (by omega), if_neg (by omega),
        if_neg (by rw [not_or, Bool.not_eq_false, Bool.not_eq_false, isCont_iff, isCont_iff]; omega), ih]
      simp only [Option.map_some, Option.some.injEq, List.cons.injEq, and_true]
      omega

theorem utf8_iff {s : Str} {b : List Nat} : utf8Decode b = some s ↔ Utf8 s b :=
  ⟨utf8_sound b.length b (Nat.le_refl _) s, utf8_complete⟩

theorem utf8_unique {s s' : Str} {b : List Nat} (h : Utf8 s b) (h' : Utf8 s' b) : s = s' := by
  have h1 := utf8_complete h
  rw [utf8_complete h'] at h1
  injection h1 with h1
  exact h1.symm

theorem utf8_append {s t : Str} {a b : List Nat} (h : Utf8 s a) (h' : Utf8 t b) : Utf8 (s ++ t) (a ++ b) := by
  induction h with
  | nil => exact h'
  | cons hc t ih => rw [List.cons_append, List.append_assoc]; exact .cons hc ih

/-- the first byte says how many there are -/
theorem utf8Char_prefix {c d : Nat} {x y p q : List Nat} (hx : Utf8Char c x) (hy : Utf8Char d y)
    (h : x ++ p = y ++ q) : c = d ∧ x = y ∧ p = q := by
  have key : ∀ {c : Nat} {x : List Nat}, Utf8Char c x → ∀ b r, x ++ p = b :: r →
      x.length = if b < 128 then 1 else if b < 224 then 2 else if b < 240 then 3 else 4 := by
    intro c x hx b r h
    cases hx <;> simp only [List.cons_append, List.cons.injEq] at h <;> obtain ⟨rfl, _⟩ := h <;>
      simp only [List.length_cons, List.length_nil] <;> (repeat' split) <;> omega
  have key' : ∀ {c : Nat} {x : List Nat}, Utf8Char c x → ∀ b r, x ++ q = b :: r →
      x.length = if b < 128 then 1 else if b < 224 then 2 else if b < 240 then 3 else 4 := by
    intro c x hx b r h
    cases hx <;> simp only [List.cons_append, List.cons.injEq] at h <;> obtain ⟨rfl, _⟩ := h <;>
      simp only [List.length_cons, List.length_nil] <;> (repeat' split) <;> omega
  have hl : x.length = y.length := by
    cases hb : x ++ p with
    | nil => cases hx <;> cases hb
    | cons b r => rw [key hx b r hb, key' hy b r (h ▸ hb)]
  obtain ⟨h1, h2⟩ := List.append_inj h hl
  subst h1
  refine ⟨?_, rfl, h2⟩
  have e1 := utf8_complete (.cons hx .nil)
  have e2 := utf8_complete (.cons hy .nil)
  rw [e1] at e2
  injection e2 with e2
  injection e2

/-- the first part of a text in UTF-8 is the first part of the text, if it is UTF-8 at all -/
theorem utf8_prefix {s t : Str} {a b : List Nat} (h : Utf8 s a) (h' : Utf8 t (a ++ b)) :
    ∃ u, t = s ++ u ∧ Utf8 u b := by
  induction h generalizing t with
  | nil => exact ⟨t, rfl, h'⟩
  | @cons c s bs a hc _ ih =>
    rw [List.append_assoc] at h'
    generalize hx : bs ++ (a ++ b) = x at h'
    cases h' with
    | nil => cases hc <;> cases hx
    | cons hd r =>
      obtain ⟨rfl, rfl, rfl⟩ := utf8Char_prefix hc hd hx
      obtain ⟨u, rfl, hu⟩ := ih r
      exact ⟨u, rfl, hu⟩

/-- a character is in the text iff its bytes are there -/
theorem utf8_scalar {s : Str} {b : List Nat} (h : Utf8 s b) : ∀ c ∈ s, ∃ bs, Utf8Char c bs := by
  induction h with
  | nil => intro c hc; cases hc
  | cons hc _ ih =>
    intro d hd
    rcases List.mem_cons.1 hd with rfl | hd
    · exact ⟨_, hc⟩
    · exact ih d hd

theorem utf8_ascii {b : List Nat} (h : ∀ c ∈ b, c < 128) : Utf8 b b := by
  induction b with
  | nil => exact .nil
  | cons c b ih => exact .cons (.one (h c (by simp))) (ih fun d hd => h d (by simp [hd]))

theorem utf8Char_bytes {c : Nat} {bs : List Nat} (h : Utf8Char c bs) :
    (bs = [c] ∧ c < 128) ∨ (2 ≤ bs.length ∧ ∀ b ∈ bs, 128 ≤ b) := by
  cases h with
  | one h => exact Or.inl ⟨rfl, h⟩
  | two h h' => right; simp; omega
  | three h h' hs => right; simp; omega
  | four h h' => right; simp; omega

/-- a byte above 127 does not stand alone -/
theorem utf8_alone {s : Str} {b : List Nat} (h : Utf8 s b) : ∀ {x y : List Nat} {a : Nat}, b = x ++ a :: y → 128 ≤ a →
    (∀ p, x.getLast? = some p → p < 128) → (∀ q, y.head? = some q → q < 128) → False := by
  induction h with
  | nil => intro x y a h; simp at h
  | @cons c s bs b hc _ ih =>
    intro x y a h ha hx hy
    rcases List.append_eq_append_iff.1 h with ⟨m, h1, h2⟩ | ⟨m, h1, h2⟩
    · refine ih h2 ha (fun p hp => hx p ?_) hy
      rw [h1, List.getLast?_append, hp]; rfl
    · cases m with
      | nil => exact ih (x := []) (by simpa using h2.symm) ha (by simp) hy
      | cons z m =>
        simp only [List.cons_append, List.cons.injEq] at h2
        obtain ⟨rfl, rfl⟩ := h2
        rcases utf8Char_bytes hc with ⟨h3, h4⟩ | ⟨h3, h4⟩
        · rw [h3] at h1
          have hm : a ∈ [c] := by rw [h1]; simp
          simp at hm
          omega
        · cases hl : x.getLast? with
          | some p =>
            have := h4 p (by rw [h1]; exact List.mem_append_left _ (List.mem_of_getLast? hl))
            have := hx p hl
            omega
          | none =>
            rw [List.getLast?_eq_none_iff] at hl
            subst hl
            cases m with
            | nil => rw [h1] at h3; simp at h3
            | cons q m =>
              have := h4 q (by rw [h1]; simp)
              have := hy q (by simp)
              omega

end Py
