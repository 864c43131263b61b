import Verif.Model.Stream
/-!
# Lemmas: reading in pieces
-/
namespace Py

/-! ## UTF-8 -/

theorem cont80 : isCont 0x80 = true := rfl

theorem utf8Decode_nil : utf8Decode [] = some [] := by rw [utf8Decode.eq_def]

/-- `utf8Feed` looks at the first character -/
theorem utf8Feed_split (b : Nat) (r : List Nat) :
    (utf8Feed (b :: r) = none ∧ ∀ t, utf8Feed (b :: r ++ t) = none ∧ utf8Decode (b :: r ++ t) = none) ∨
    (utf8Feed (b :: r) = some ([], b :: r) ∧ ∃ t, utf8Decode (b :: r ++ t) ≠ none) ∨
    ∃ c q, q.length ≤ r.length ∧ ∀ t, utf8Feed (b :: r ++ t) = (utf8Feed (q ++ t)).map (fun x => (c :: x.1, x.2)) ∧
      utf8Decode (b :: r ++ t) = (utf8Decode (q ++ t)).map (c :: ·) := by
  by_cases h1 : b < 0x80
  · right; right
    refine ⟨b, r, Nat.le_refl _, fun t => ?_⟩
    rw [List.cons_append, utf8Feed.eq_def, utf8Decode.eq_def]
    simp only [if_pos h1, and_self]
  by_cases h2 : b < 0xC2
  · left
    have key : ∀ r, utf8Feed (b :: r) = none ∧ utf8Decode (b :: r) = none := fun r => by
      rw [utf8Feed.eq_def, utf8Decode.eq_def]
      simp only [if_neg h1, if_pos h2, and_self]
    exact ⟨(key r).1, fun t => key (r ++ t)⟩
  by_cases h3 : b < 0xE0
  · cases r with
    | nil =>
      right; left
      refine ⟨by rw [utf8Feed.eq_def]; simp only [if_neg h1, if_neg h2, if_pos h3], [0x80], ?_⟩
      rw [List.singleton_append, utf8Decode.eq_def]
      simp only [if_neg h1, if_neg h2, if_pos h3, cont80, if_true, utf8Decode_nil]
      nofun
    | cons b1 r =>
      cases hc : isCont b1 with
      | false =>
        left
        have key : ∀ r, utf8Feed (b :: b1 :: r) = none ∧ utf8Decode (b :: b1 :: r) = none := fun r => by
          rw [utf8Feed.eq_def, utf8Decode.eq_def]
          simp [if_neg h1, if_pos h3, hc]
        exact ⟨(key r).1, fun t => key (r ++ t)⟩
      | true =>
        right; right
        refine ⟨b * 64 + b1 - (0xC0 * 64 + 0x80), r, Nat.le_succ _, fun t => ?_⟩
        rw [List.cons_append, List.cons_append, utf8Feed.eq_def, utf8Decode.eq_def]
        simp only [if_neg h1, if_neg h2, if_pos h3, hc, if_true, and_self]
  by_cases h4 : b < 0xF0
  · cases r with
    | nil =>
      right; left
      refine ⟨by rw [utf8Feed.eq_def]; simp only [if_neg h1, if_neg h2, if_neg h3, if_pos h4], ?_⟩
      by_cases he : b = 0xE0
      · refine ⟨[0xA0, 0x80], ?_⟩
        rw [he, List.singleton_append, utf8Decode.eq_def]
        simp [utf8Decode_nil, isCont]
      · refine ⟨[0x80, 0x80], ?_⟩
        rw [List.singleton_append, utf8Decode.eq_def]
        have k2 : ¬ (b = 0xE0 ∧ 0x80 < 0xA0) := fun h => he h.1
        have k3 : ¬ (b = 0xED ∧ 0xA0 ≤ 0x80) := fun h => absurd h.2 (by decide)
        simp only [if_neg h1, if_neg h2, if_neg h3, if_pos h4, cont80, utf8Decode_nil, if_neg k2, if_neg k3,
          Bool.true_eq_false, if_false]
        nofun
    | cons b1 r =>
      by_cases hg : isCont b1 = false ∨ (b = 0xE0 ∧ b1 < 0xA0) ∨ (b = 0xED ∧ 0xA0 ≤ b1)
      · left
        have key : ∀ r, utf8Feed (b :: b1 :: r) = none ∧ utf8Decode (b :: b1 :: r) = none := fun r => by
          rw [utf8Feed.eq_def, utf8Decode.eq_def]
          cases r with
          | nil => simp only [if_neg h1, if_neg h2, if_neg h3, if_pos h4]; grind
          | cons b2 r => simp only [if_neg h1, if_neg h2, if_neg h3, if_pos h4]; grind
        exact ⟨(key r).1, fun t => key (r ++ t)⟩
      · have g1 : ¬ isCont b1 = false := fun h => hg (.inl h)
        have g2 : ¬ (b = 0xE0 ∧ b1 < 0xA0) := fun h => hg (.inr (.inl h))
        have g3 : ¬ (b = 0xED ∧ 0xA0 ≤ b1) := fun h => hg (.inr (.inr h))
        cases r with
        | nil =>
          right; left
          refine ⟨by rw [utf8Feed.eq_def]
                     simp only [if_neg h1, if_neg h2, if_neg h3, if_pos h4, if_neg g1, if_neg g2, if_neg g3], [0x80], ?_⟩
          rw [List.cons_append, List.cons_append, List.nil_append, utf8Decode.eq_def]
          simp only [if_neg h1, if_neg h2, if_neg h3, if_pos h4, if_neg g1, if_neg g2, if_neg g3, cont80, utf8Decode_nil]
          nofun
        | cons b2 r =>
          by_cases g4 : isCont b2 = false
          · left
            have key : ∀ r, utf8Feed (b :: b1 :: b2 :: r) = none ∧ utf8Decode (b :: b1 :: b2 :: r) = none := fun r => by
              rw [utf8Feed.eq_def, utf8Decode.eq_def]
              simp only [if_neg h1, if_neg h2, if_neg h3, if_pos h4, if_neg g1, if_neg g2, if_neg g3, if_pos g4, and_self]
            exact ⟨(key r).1, fun t => key (r ++ t)⟩
          · right; right
            refine ⟨b * 4096 + b1 * 64 + b2 - (0xE0 * 4096 + 0x80 * 64 + 0x80), r, ?_, fun t => ?_⟩
            · simp only [List.length_cons]; omega
            rw [List.cons_append, List.cons_append, List.cons_append, utf8Feed.eq_def, utf8Decode.eq_def]
            simp only [if_neg h1, if_neg h2, if_neg h3, if_pos h4, if_neg g1, if_neg g2, if_neg g3, if_neg g4, and_self]
  by_cases h5 : b < 0xF5
  · cases r with
    | nil =>
      right; left
      refine ⟨by rw [utf8Feed.eq_def]; simp only [if_neg h1, if_neg h2, if_neg h3, if_neg h4, if_pos h5], ?_⟩
      by_cases he : b = 0xF0
      · refine ⟨[0x90, 0x80, 0x80], ?_⟩
        rw [he, List.singleton_append, utf8Decode.eq_def]
        simp [utf8Decode_nil, isCont]
      · refine ⟨[0x80, 0x80, 0x80], ?_⟩
        rw [List.singleton_append, utf8Decode.eq_def]
        have k2 : ¬ (b = 0xF0 ∧ 0x80 < 0x90) := fun h => he h.1
        have k3 : ¬ (b = 0xF4 ∧ 0x90 ≤ 0x80) := fun h => absurd h.2 (by decide)
        simp only [if_neg h1, if_neg h2, if_neg h3, if_neg h4, if_pos h5, cont80, utf8Decode_nil, if_neg k2, if_neg k3,
          Bool.true_eq_false, or_self, if_false]
        nofun
    | cons b1 r =>
      by_cases hg : isCont b1 = false ∨ (b = 0xF0 ∧ b1 < 0x90) ∨ (b = 0xF4 ∧ 0x90 ≤ b1)
      · left
        have key : ∀ r, utf8Feed (b :: b1 :: r) = none ∧ utf8Decode (b :: b1 :: r) = none := fun r => by
          rw [utf8Feed.eq_def, utf8Decode.eq_def]
          cases r with
          | nil => simp only [if_neg h1, if_neg h2, if_neg h3, if_neg h4, if_pos h5]; grind
          | cons b2 r =>
            cases r with
            | nil => simp only [if_neg h1, if_neg h2, if_neg h3, if_neg h4, if_pos h5]; grind
            | cons b3 r => simp only [if_neg h1, if_neg h2, if_neg h3, if_neg h4, if_pos h5]; grind
        exact ⟨(key r).1, fun t => key (r ++ t)⟩
      · have g1 : ¬ isCont b1 = false := fun h => hg (.inl h)
        have g2 : ¬ (b = 0xF0 ∧ b1 < 0x90) := fun h => hg (.inr (.inl h))
        have g3 : ¬ (b = 0xF4 ∧ 0x90 ≤ b1) := fun h => hg (.inr (.inr h))
        cases r with
        | nil =>
          right; left
          refine ⟨by rw [utf8Feed.eq_def]
                     simp only [if_neg h1, if_neg h2, if_neg h3, if_neg h4, if_pos h5, if_neg g1, if_neg g2, if_neg g3],
            [0x80, 0x80], ?_⟩
          rw [List.cons_append, List.cons_append, List.nil_append, utf8Decode.eq_def]
          simp only [if_neg h1, if_neg h2, if_neg h3, if_neg h4, if_pos h5, if_neg g1, if_neg g2, if_neg g3, cont80,
            utf8Decode_nil, Bool.true_eq_false, or_self, if_false]
          nofun
        | cons b2 r =>
          by_cases g4 : isCont b2 = false
          · left
            have key : ∀ r, utf8Feed (b :: b1 :: b2 :: r) = none ∧ utf8Decode (b :: b1 :: b2 :: r) = none := fun r => by
              rw [utf8Feed.eq_def, utf8Decode.eq_def]
              cases r with
              | nil => simp only [if_neg h1, if_neg h2, if_neg h3, if_neg h4, if_pos h5, if_neg g1, if_neg g2, if_neg g3,
                  if_pos g4, and_self]
              | cons b3 r => simp only [if_neg h1, if_neg h2, if_neg h3, if_neg h4, if_pos h5, if_neg g1, if_neg g2,
                  if_neg g3, g4, true_or, if_true, and_self]
            exact ⟨(key r).1, fun t => key (r ++ t)⟩
          · cases r with
            | nil =>
              right; left
              refine ⟨by rw [utf8Feed.eq_def]
                         simp only [if_neg h1, if_neg h2, if_neg h3, if_neg h4, if_pos h5, if_neg g1, if_neg g2,
                           if_neg g3, if_neg g4], [0x80], ?_⟩
              rw [List.cons_append, List.cons_append, List.cons_append, List.nil_append, utf8Decode.eq_def]
              simp only [if_neg h1, if_neg h2, if_neg h3, if_neg h4, if_pos h5, if_neg g1, if_neg g2, if_neg g3, cont80,
                utf8Decode_nil, g4, Bool.true_eq_false, or_self, if_false]
              nofun
            | cons b3 r =>
              by_cases g5 : isCont b3 = false
              · left
                have key : ∀ r, utf8Feed (b :: b1 :: b2 :: b3 :: r) = none ∧
                    utf8Decode (b :: b1 :: b2 :: b3 :: r) = none := fun r => by
                  rw [utf8Feed.eq_def, utf8Decode.eq_def]
                  simp only [if_neg h1, if_neg h2, if_neg h3, if_neg h4, if_pos h5, if_neg g1, if_neg g2, if_neg g3, g5,
                    or_true, if_true, and_self]
                exact ⟨(key r).1, fun t => key (r ++ t)⟩
              · right; right
                refine ⟨b * 262144 + b1 * 4096 + b2 * 64 + b3 - (0xF0 * 262144 + 0x80 * 4096 + 0x80 * 64 + 0x80), r,
                  ?_, fun t => ?_⟩
                · simp only [List.length_cons]; omega
                have g6 : ¬ (isCont b2 = false ∨ isCont b3 = false) := fun h => h.elim g4 g5
                rw [List.cons_append, List.cons_append, List.cons_append, List.cons_append, utf8Feed.eq_def,
                  utf8Decode.eq_def]
                simp only [if_neg h1, if_neg h2, if_neg h3, if_neg h4, if_pos h5, if_neg g1, if_neg g2, if_neg g3,
                  if_neg g6, and_self]
  · left
    have key : ∀ r, utf8Feed (b :: r) = none ∧ utf8Decode (b :: r) = none := fun r => by
      rw [utf8Feed.eq_def, utf8Decode.eq_def]
      simp only [if_neg h1, if_neg h2, if_neg h3, if_neg h4, if_neg h5, and_self]
    exact ⟨(key r).1, fun t => key (r ++ t)⟩

/-- what was decoded of the first bytes is the beginning of what the bytes are decoded to -/
theorem utf8Feed_decode (n : Nat) : ∀ a : List Nat, a.length ≤ n → ∀ t,
    (utf8Feed a = none → utf8Decode (a ++ t) = none) ∧
    ∀ s k, utf8Feed a = some (s, k) → utf8Decode (a ++ t) = (utf8Decode (k ++ t)).map (s ++ ·) := by
  induction n with
  | zero =>
    intro a ha t
    have : a = [] := List.length_eq_zero_iff.1 (Nat.le_zero.1 ha)
    subst this
    rw [utf8Feed.eq_def]
    refine ⟨nofun, fun s k h => ?_⟩
    simp only [Option.some.injEq, Prod.mk.injEq] at h
    obtain ⟨rfl, rfl⟩ := h
    simp
  | succ n ih =>
    intro a ha t
    cases a with
    | nil => exact ih [] (Nat.zero_le _) t
    | cons b r =>
      rcases utf8Feed_split b r with ⟨h, ht⟩ | ⟨h, -⟩ | ⟨c, q, hq, hc⟩
      · refine ⟨fun _ => (ht t).2, fun s k h' => ?_⟩
        rw [h] at h'; cases h'
      · refine ⟨fun h' => ?_, fun s k h' => ?_⟩
        · rw [h] at h'; cases h'
        · rw [h] at h'
          simp only [Option.some.injEq, Prod.mk.injEq] at h'
          obtain ⟨rfl, rfl⟩ := h'
          simp
      · have hlen : q.length ≤ n := by
          simp only [List.length_cons] at ha; omega
        obtain ⟨i1, i2⟩ := ih q hlen t
        have h0 := (hc []).1
        rw [List.append_nil, List.append_nil] at h0
        rw [(hc t).2, h0]
        cases hf : utf8Feed q with
        | none => exact ⟨fun _ => by rw [i1 hf]; rfl, nofun⟩
        | some x =>
          refine ⟨nofun, fun s k h' => ?_⟩
          simp only [Option.map_some, Option.some.injEq, Prod.mk.injEq] at h'
          obtain ⟨rfl, rfl⟩ := h'
          rw [i2 x.1 x.2 hf]
          cases utf8Decode (x.2 ++ t) <;> rfl

/-- what was kept is an incomplete character -/
theorem utf8Feed_kept (n : Nat) : ∀ a : List Nat, a.length ≤ n → ∀ s k, utf8Feed a = some (s, k) →
    utf8Feed k = some ([], k) ∧ ∃ t, utf8Decode (k ++ t) ≠ none := by
  induction n with
  | zero =>
    intro a ha s k h
    have : a = [] := List.length_eq_zero_iff.1 (Nat.le_zero.1 ha)
    subst this
    rw [utf8Feed.eq_def] at h
    simp only [Option.some.injEq, Prod.mk.injEq] at h
    obtain ⟨rfl, rfl⟩ := h
    exact ⟨by rw [utf8Feed.eq_def], [], by simp [utf8Decode_nil]⟩
  | succ n ih =>
    intro a ha s k h
    cases a with
    | nil => exact ih [] (Nat.zero_le _) s k h
    | cons b r =>
      rcases utf8Feed_split b r with ⟨h', -⟩ | ⟨h', ht⟩ | ⟨c, q, hq, hc⟩
      · rw [h'] at h; cases h
      · rw [h'] at h
        simp only [Option.some.injEq, Prod.mk.injEq] at h
        obtain ⟨rfl, rfl⟩ := h
        exact ⟨h', ht⟩
      · have hlen : q.length ≤ n := by
          simp only [List.length_cons] at ha; omega
        have h0 := (hc []).1
        rw [List.append_nil, List.append_nil] at h0
        rw [h0] at h
        cases hf : utf8Feed q with
        | none => rw [hf] at h; cases h
        | some x =>
          rw [hf] at h
          simp only [Option.map_some, Option.some.injEq, Prod.mk.injEq] at h
          obtain ⟨rfl, rfl⟩ := h
          exact ih q hlen _ _ hf

/-! ## Newlines -/

theorem universalNewlines_ne {c : Nat} (h : c ≠ 13) (s : Str) :
    universalNewlines (c :: s) = c :: universalNewlines s := by
  rw [universalNewlines]
  · intro _ h'; exact absurd h' h
  · exact h

theorem universalNewlines_join {a b : Str} (h : a.getLast? = some 13 → b.head? ≠ some 10) :
    universalNewlines (a ++ b) = universalNewlines a ++ universalNewlines b := by
  induction a using universalNewlines.induct with
  | case1 => rfl
  | case2 s ih =>
    rw [List.cons_append, List.cons_append, universalNewlines, universalNewlines, List.cons_append, ih]
    intro hs
    apply h
    cases s with
    | nil => cases hs
    | cons x s => simpa using hs
  | case3 s hs ih =>
    have e : universalNewlines (13 :: s) = 10 :: universalNewlines s := by
      rw [universalNewlines]
      intro s' hh; exact hs s' hh
    rw [e]
    cases s with
    | nil =>
      have hb : b.head? ≠ some 10 := h rfl
      show universalNewlines (13 :: b) = 10 :: universalNewlines b
      cases b with
      | nil => rfl
      | cons x b =>
        rw [universalNewlines]
        intro s' hh
        injection hh with hx _
        exact hb (by rw [hx]; rfl)
    | cons x s =>
      have e' : universalNewlines (13 :: (x :: s ++ b)) = 10 :: universalNewlines (x :: s ++ b) := by
        rw [universalNewlines]
        intro s' hh
        rw [List.cons_append] at hh
        injection hh with hx hy
        exact hs s (by rw [hx])
      rw [List.cons_append, e', ih (fun hl => h (by simpa using hl))]
      rfl
  | case4 c s h1 h2 ih =>
    have hne : c ≠ 13 := h2
    rw [List.cons_append, universalNewlines_ne hne, universalNewlines_ne hne, List.cons_append, ih]
    intro hs
    apply h
    cases s with
    | nil => cases hs
    | cons x s => simpa using hs

/-- the CR that is held back -/
def heldBack : Bool → Str
  | true => [13]
  | false => []

theorem dropLast_getLast {s : Str} {c : Nat} (h : s.getLast? = some c) : s = s.dropLast ++ [c] := by
  have hne : s ≠ [] := by rintro rfl; cases h
  rw [List.getLast?_eq_some_getLast hne] at h
  injection h with h
  rw [← h]
  exact (List.dropLast_concat_getLast hne).symm

theorem newlineFeed_more (cr : Bool) (s u : Str) :
    universalNewlines (heldBack cr ++ (s ++ u)) =
      (newlineFeed cr s false).1 ++ universalNewlines (heldBack (newlineFeed cr s false).2 ++ u) := by
  -- what is translated now, `x`, and what is held back
  have key : ∀ x : Str, (if endsWithChar x 13 then (universalNewlines x.dropLast, true) else (universalNewlines x, false)).1 ++
      universalNewlines (heldBack (if endsWithChar x 13 then (universalNewlines x.dropLast, true)
        else (universalNewlines x, false)).2 ++ u) = universalNewlines (x ++ u) := by
    intro x
    cases he : endsWithChar x 13 with
    | true =>
      have hl : x.getLast? = some 13 := by simpa [endsWithChar] using he
      simp only [if_true, heldBack]
      conv => rhs; rw [dropLast_getLast hl, List.append_assoc]
      rw [universalNewlines_join (a := x.dropLast) (b := [13] ++ u)]
      intro _ h
      cases h
    | false =>
      have hl : x.getLast? ≠ some 13 := by
        intro h
        have : endsWithChar x 13 = true := by simp [endsWithChar, h]
        rw [he] at this; cases this
      simp only [Bool.false_eq_true, if_false, heldBack, List.nil_append]
      rw [universalNewlines_join fun h => absurd h hl]
  cases cr with
  | false =>
    rw [← List.append_assoc]
    simp only [newlineFeed, Bool.false_and, Bool.false_eq_true, if_false, heldBack, List.nil_append, Bool.not_false,
      Bool.true_and]
    exact (key s).symm
  | true =>
    cases s with
    | nil => simp [newlineFeed, endsWithChar, heldBack, universalNewlines]
    | cons c s =>
      simp only [newlineFeed, Bool.true_and, List.isEmpty_cons, Bool.not_false, Bool.true_or, if_true]
      exact (key (13 :: c :: s)).symm

theorem newlineFeed_last (cr : Bool) (s : Str) :
    (newlineFeed cr s true).1 = universalNewlines (heldBack cr ++ s) := by
  cases cr <;> simp [newlineFeed, heldBack]

/-- all pieces together -/
theorem textPieces_flatten (cs : List (List Nat)) (kept : List Nat) (cr : Bool) :
    (match textPieces kept cr true cs with
      | .ok ps => utf8Decode (kept ++ cs.flatten) ≠ none ∧
          ∀ s, utf8Decode (kept ++ cs.flatten) = some s → ps.flatten = universalNewlines (heldBack cr ++ s)
      | .error e => e = true ∧ utf8Decode (kept ++ cs.flatten) = none) := by
  induction cs generalizing kept cr with
  | nil =>
    simp only [textPieces, if_true, List.flatten_nil, List.append_nil]
    cases h : utf8Decode kept with
    | none => exact ⟨rfl, rfl⟩
    | some s =>
      refine ⟨nofun, fun s' h' => ?_⟩
      injection h' with h'
      subst h'
      simp [newlineFeed_last]
  | cons c cs ih =>
    obtain ⟨f1, f2⟩ := utf8Feed_decode (kept ++ c).length (kept ++ c) (Nat.le_refl _) cs.flatten
    simp only [textPieces, List.flatten_cons]
    rw [← List.append_assoc]
    cases hf : utf8Feed (kept ++ c) with
    | none => exact ⟨rfl, f1 hf⟩
    | some x =>
      obtain ⟨s, k⟩ := x
      have i := ih k (newlineFeed cr s false).2
      rw [f2 s k hf]
      cases ht : textPieces k (newlineFeed cr s false).2 true cs with
      | error e =>
        rw [ht] at i
        simp only [ht, Except.map]
        refine ⟨i.1, ?_⟩
        rw [i.2]; rfl
      | ok ps =>
        rw [ht] at i
        simp only [ht, Except.map]
        refine ⟨fun h => i.1 (by simpa using h), fun s' h' => ?_⟩
        cases hd : utf8Decode (k ++ cs.flatten) with
        | none => exact absurd hd i.1
        | some u =>
          rw [hd] at h'
          injection h' with h'
          subst h'
          rw [List.flatten_cons, i.2 u hd, newlineFeed_more]

/-- If reading fails in the end, that is the error, unless the bytes before cannot begin any text. -/
theorem textPieces_broken (cs : List (List Nat)) (kept : List Nat) (cr : Bool)
    (hk : ∃ t, utf8Decode (kept ++ t) ≠ none) :
    (textPieces kept cr false cs = .error false ∧ ∃ t, utf8Decode (kept ++ cs.flatten ++ t) ≠ none) ∨
    (textPieces kept cr false cs = .error true ∧ ∀ t, utf8Decode (kept ++ cs.flatten ++ t) = none) := by
  induction cs generalizing kept cr with
  | nil => exact .inl ⟨rfl, by simpa using hk⟩
  | cons c cs ih =>
    have f := utf8Feed_decode (kept ++ c).length (kept ++ c) (Nat.le_refl _)
    have e : ∀ t, kept ++ (c ++ cs.flatten) ++ t = kept ++ c ++ (cs.flatten ++ t) := fun t => by simp
    simp only [textPieces, List.flatten_cons, e]
    cases hf : utf8Feed (kept ++ c) with
    | none => exact .inr ⟨rfl, fun t => (f _).1 hf⟩
    | some x =>
      obtain ⟨s, k⟩ := x
      have hx := (utf8Feed_kept _ (kept ++ c) (Nat.le_refl _) s k hf).2
      rcases ih k (newlineFeed cr s false).2 hx with ⟨h1, t, ht⟩ | ⟨h1, ht⟩
      · refine .inl ⟨by simp only [h1]; rfl, t, ?_⟩
        rw [(f _).2 s k hf]
        intro h
        apply ht
        rw [List.append_assoc]
        simpa using h
      · refine .inr ⟨by simp only [h1]; rfl, fun t => ?_⟩
        rw [(f _).2 s k hf, ← List.append_assoc, ht t]
        rfl

/-! ## Lines -/

theorem splitKeepLF_ne {c : Nat} (h : c ≠ 10) (s : Str) :
    splitKeepLF (c :: s) = match splitKeepLF s with | [] => [[c]] | l :: ls => (c :: l) :: ls := by
  rw [splitKeepLF]
  · rfl
  · exact h

theorem splitKeepLF_cur {cur : Str} (h : ∀ c ∈ cur, c ≠ 10) (s : Str) :
    splitKeepLF (cur ++ 10 :: s) = (cur ++ [10]) :: splitKeepLF s := by
  induction cur with
  | nil => rw [List.nil_append, splitKeepLF]; rfl
  | cons c cur ih =>
    rw [List.cons_append, splitKeepLF_ne (h c (.head _)), ih fun d hd => h d (.tail _ hd)]
    rfl

theorem splitKeepLF_rest {cur : Str} (h : ∀ c ∈ cur, c ≠ 10) :
    splitKeepLF cur = if cur.isEmpty then [] else [cur] := by
  induction cur with
  | nil => rfl
  | cons c cur ih =>
    rw [splitKeepLF_ne (h c (.head _)), ih fun d hd => h d (.tail _ hd)]
    cases cur <;> rfl

theorem takeLines_split {cur : Str} (h : ∀ c ∈ cur, c ≠ 10) (p t : Str) :
    splitKeepLF (cur ++ (p ++ t)) = (takeLines cur p).1 ++ splitKeepLF ((takeLines cur p).2 ++ t) ∧
    ∀ c ∈ (takeLines cur p).2, c ≠ 10 := by
  induction p generalizing cur with
  | nil => exact ⟨rfl, h⟩
  | cons c p ih =>
    by_cases hc : c = 10
    · subst hc
      obtain ⟨i1, i2⟩ := ih (cur := []) nofun
      simp only [takeLines, if_true]
      refine ⟨?_, i2⟩
      rw [List.cons_append, splitKeepLF_cur h, List.cons_append]
      rw [List.nil_append] at i1
      rw [i1]
    · have hcur : ∀ d ∈ cur ++ [c], d ≠ 10 := by
        intro d hd
        rcases List.mem_append.1 hd with hd | hd
        · exact h d hd
        · rw [List.mem_singleton.1 hd]; exact hc
      obtain ⟨i1, i2⟩ := ih hcur
      simp only [takeLines, if_neg hc]
      refine ⟨?_, i2⟩
      rw [← i1]
      simp

theorem linesOfPieces_flatten (ps : List Str) {cur : Str} (h : ∀ c ∈ cur, c ≠ 10) :
    linesOfPieces cur ps = splitKeepLF (cur ++ ps.flatten) := by
  induction ps generalizing cur with
  | nil => rw [List.flatten_nil, List.append_nil, splitKeepLF_rest h]; rfl
  | cons p ps ih =>
    obtain ⟨h1, h2⟩ := takeLines_split h p ps.flatten
    rw [List.flatten_cons, h1, linesOfPieces, ih h2]

end Py

namespace Arinc
open Py
variable [PyUnicode]

omit [PyUnicode] in
/-- a file that cannot be read to its end -/
theorem readlines_broken (cs : List (List Nat)) :
    ((Source.broken cs).readlines = .error .osError ∧ ∃ t, utf8Decode (cs.flatten ++ t) ≠ none) ∨
    ((Source.broken cs).readlines = .error .valueError ∧ ∀ t, utf8Decode (cs.flatten ++ t) = none) := by
  have h := textPieces_broken cs [] false ⟨[], by simp [utf8Decode_nil]⟩
  rw [List.nil_append] at h
  simp only [Source.readlines]
  rcases h with ⟨h1, h2⟩ | ⟨h1, h2⟩ <;> rw [h1]
  · exact .inl ⟨rfl, h2⟩
  · exact .inr ⟨rfl, h2⟩

omit [PyUnicode] in
/-- the lines of a file do not depend on how it is delivered -/
theorem readlines_pieces (cs : List (List Nat)) :
    (Source.pieces cs).readlines = (Disk.bytes cs.flatten).file.readlines := by
  have h := textPieces_flatten cs [] false
  simp only [Source.readlines, Disk.file]
  rw [List.nil_append] at h
  cases ht : textPieces [] false true cs with
  | error e =>
    rw [ht] at h
    obtain ⟨rfl, hd⟩ := h
    rw [hd]
    rfl
  | ok ps =>
    rw [ht] at h
    obtain ⟨h1, h2⟩ := h
    cases hd : utf8Decode cs.flatten with
    | none => exact absurd hd h1
    | some s =>
      have := h2 s hd
      simp only [FileObj.readlines]
      rw [linesOfPieces_flatten ps (by simp), List.nil_append, this]
      rfl

end Arinc
