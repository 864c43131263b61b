import Verif.Spec.Encoding
import Verif.Lemmas.Utf8
import Verif.Lemmas.File
import Verif.Lemmas.Read
/-! # Lemmas: text in a code page -/
namespace Arinc
open Py Spec

theorem charmap_iff {t : CodePage} : ∀ {b : List Nat} {s : Str}, charmapDecode t b = some s ↔ InPage t s b
  | [], s => by
    constructor
    · intro h; cases h; exact .nil
    · intro h; cases h; rfl
  | x :: b, s => by
    constructor
    · intro h
      rw [charmapDecode] at h
      split at h
      · cases h
      · rename_i c hc
        split at h
        · cases h
        · rename_i s' hs
          cases h
          exact .cons hc (charmap_iff.1 hs)
    · intro h
      cases h with
      | cons h r => rw [charmapDecode, h, charmap_iff.2 r]

theorem inPage_ascii {t : CodePage} (ht : ExtendsAscii t) : ∀ {b : List Nat}, (∀ c ∈ b, c < 128) → InPage t b b
  | [], _ => .nil
  | c :: b, h => .cons (ht.ascii c (h c (by simp))) (inPage_ascii ht fun d hd => h d (by simp [hd]))

theorem inPage_append {t : CodePage} : ∀ {a b : List Nat} {s : Str}, InPage t s (a ++ b) →
    ∃ x y, s = x ++ y ∧ InPage t x a ∧ InPage t y b
  | [], _, s, h => ⟨[], s, rfl, .nil, h⟩
  | z :: a, b, s, h => by
    cases h with
    | cons h r =>
      obtain ⟨x, y, rfl, h1, h2⟩ := inPage_append r
      exact ⟨_ :: x, y, rfl, .cons h h1, h2⟩

theorem inPage_length {t : CodePage} {s : Str} {b : List Nat} (h : InPage t s b) : s.length = b.length := by
  induction h with
  | nil => rfl
  | cons _ _ ih => simp [ih]

/-- what a text in UTF-8 looks like in the code page, character by character -/
inductive Garbled (t : CodePage) : Str → Str → Prop
  | nil : Garbled t [] []
  | cons {c : Nat} {cs s s' : Str} {bs : List Nat} (h : Utf8Char c bs) (hc : InPage t cs bs) (r : Garbled t s s') :
      Garbled t (c :: s) (cs ++ s')

theorem garbled_of {t : CodePage} {s : Str} {b : List Nat} (h : Utf8 s b) :
    ∀ {s' : Str}, InPage t s' b → Garbled t s s' := by
  induction h with
  | nil => intro s' h'; cases h'; exact .nil
  | cons h _ ih =>
    intro s' h'
    obtain ⟨x, y, rfl, h1, h2⟩ := inPage_append h'
    exact .cons h h1 (ih h2)

theorem garbled_append {t : CodePage} : ∀ {x y s' : Str}, Garbled t (x ++ y) s' →
    ∃ x' y', s' = x' ++ y' ∧ Garbled t x x' ∧ Garbled t y y'
  | [], _, s', h => ⟨[], s', rfl, .nil, h⟩
  | c :: x, y, s', h => by
    cases h with
    | cons h hc r =>
      obtain ⟨x', y', rfl, h1, h2⟩ := garbled_append r
      exact ⟨_ ++ x', y', by simp, .cons h hc h1, h2⟩

/-- one character -/
theorem garbled_char {t : CodePage} (ht : ExtendsAscii t) {c : Nat} {cs : Str} {bs : List Nat} (h : Utf8Char c bs)
    (hc : InPage t cs bs) :
    (c < 128 ∧ cs = [c]) ∨
    (128 ≤ c ∧ ∃ x d ds, cs = d :: ds ∧ t x = some d ∧ 0xC2 ≤ x ∧ x ≤ 0xF4 ∧ 128 ≤ d ∧ ds ≠ [] ∧ ds.length ≤ 3 ∧
      ∀ e ∈ ds, 128 ≤ e) := by
  have big : ∀ {b : List Nat} {s : Str}, InPage t s b → (∀ x ∈ b, 128 ≤ x) → ∀ e ∈ s, 128 ≤ e := by
    intro b s h
    induction h with
    | nil => intro _ e he; cases he
    | @cons c x s b h _ ih =>
      intro hb e he
      cases he with
      | head => exact ht.others _ _ (hb x (by simp)) h
      | tail _ he => exact ih (fun y hy => hb y (by simp [hy])) e he
  have rest : ∀ {x : Nat} {b : List Nat} {cs : Str}, InPage t cs (x :: b) → 0xC2 ≤ x → x ≤ 0xF4 → b ≠ [] →
      b.length ≤ 3 → (∀ y ∈ b, 128 ≤ y) →
      ∃ x d ds, cs = d :: ds ∧ t x = some d ∧ 0xC2 ≤ x ∧ x ≤ 0xF4 ∧ 128 ≤ d ∧ ds ≠ [] ∧ ds.length ≤ 3 ∧
        ∀ e ∈ ds, 128 ≤ e := by
    intro x b cs h h1 h2 h3 h4 h5
    cases h with
    | @cons d _ ds _ h r =>
      have hl := inPage_length r
      refine ⟨x, d, ds, rfl, h, h1, h2, ht.others x d (by omega) h, ?_, by omega, big r h5⟩
      rintro rfl
      apply h3
      exact List.length_eq_zero_iff.1 hl.symm
  cases h with
  | one h =>
    cases hc with
    | cons h1 r =>
      cases r
      rw [ht.ascii c h] at h1
      cases h1
      exact .inl ⟨h, rfl⟩
  | two h h' => exact .inr ⟨h, rest hc (by omega) (by omega) (by simp) (by simp) (by simp)⟩
  | three h h' hs => exact .inr ⟨by omega, rest hc (by omega) (by omega) (by simp) (by simp) (by simp)⟩
  | four h h' => exact .inr ⟨by omega, rest hc (by omega) (by omega) (by simp) (by simp) (by simp)⟩

theorem garbled_ascii {t : CodePage} (ht : ExtendsAscii t) {s s' : Str} (h : Garbled t s s') (ha : ∀ c ∈ s, c < 128) :
    s' = s := by
  induction h with
  | nil => rfl
  | @cons c _ s _ _ h hc _ ih =>
    rcases garbled_char ht h hc with ⟨_, rfl⟩ | ⟨h1, _⟩
    · rw [ih fun d hd => ha d (by simp [hd])]; rfl
    · have := ha c (by simp); omega

theorem garbled_length {t : CodePage} (ht : ExtendsAscii t) {s s' : Str} (h : Garbled t s s') :
    s.length ≤ s'.length ∧ (s'.length = s.length → ∀ c ∈ s, c < 128) := by
  induction h with
  | nil => simp
  | @cons c cs s s' _ h hc _ ih =>
    rcases garbled_char ht h hc with ⟨h1, rfl⟩ | ⟨h1, x, d, ds, rfl, _, _, _, _, hne, _⟩
    · simp only [List.cons_append, List.nil_append, List.length_cons]
      refine ⟨by omega, fun he d hd => ?_⟩
      cases hd with
      | head => exact h1
      | tail _ hd => exact ih.2 (by omega) d hd
    · have : 1 ≤ ds.length := List.length_pos_iff.2 hne
      simp only [List.cons_append, List.length_cons, List.length_append]
      exact ⟨by omega, fun he => by omega⟩

theorem garbled_noEOL {t : CodePage} (ht : ExtendsAscii t) {s s' : Str} (h : Garbled t s s') (hs : NoEOL s) : NoEOL s' := by
  induction h with
  | nil => exact hs
  | @cons c cs s s' _ h hc _ ih =>
    have hs' : NoEOL s := fun d hd => hs d (by simp [hd])
    rcases garbled_char ht h hc with ⟨h1, rfl⟩ | ⟨h1, x, d, ds, rfl, _, _, _, hd, _, _, hds⟩
    · intro e he
      simp only [List.cons_append, List.nil_append, List.mem_cons] at he
      rcases he with rfl | he
      · exact hs _ (by simp)
      · exact ih hs' e he
    · intro e he
      simp only [List.cons_append, List.mem_cons, List.mem_append] at he
      rcases he with rfl | he | he
      · omega
      · have := hds e he; omega
      · exact ih hs' e he

theorem garbled_cons_ascii {t : CodePage} (ht : ExtendsAscii t) {c : Nat} (hc : c < 128) {s s' : Str}
    (h : Garbled t (c :: s) s') : ∃ r, s' = c :: r ∧ Garbled t s r := by
  cases h with
  | cons h hcs r =>
    rcases garbled_char ht h hcs with ⟨_, rfl⟩ | ⟨h1, _⟩
    · exact ⟨_, rfl, r⟩
    · omega

theorem garbled_head {t : CodePage} (ht : ExtendsAscii t) {s s' : Str} (h : Garbled t s s') {a : Nat} (ha : a < 128)
    (hs : s.head? ≠ some a) : s'.head? ≠ some a := by
  cases h with
  | nil => exact hs
  | cons h hcs r =>
    rcases garbled_char ht h hcs with ⟨_, rfl⟩ | ⟨h1, x, d, ds, rfl, _, _, _, hd, _⟩
    · simpa using hs
    · simp; omega

/-- line by line -/
inductive GarbledLines (t : CodePage) : List Str → List Str → Prop
  | nil : GarbledLines t [] []
  | cons {l l' : Str} {ls ls' : List Str} (h : Garbled t l l') (r : GarbledLines t ls ls') :
      GarbledLines t (l :: ls) (l' :: ls')

/-- the lines stay lines -/
theorem garbled_lines {t : CodePage} (ht : ExtendsAscii t) {s : Str} {ls : List Str} (h : Lines s ls) :
    ∀ {s' : Str}, Garbled t s s' → ∃ ls', Lines s' ls' ∧ GarbledLines t ls ls' := by
  induction h with
  | nil => intro s' h'; cases h'; exact ⟨[], .nil, .nil⟩
  | last hl hne =>
    intro s' h'
    refine ⟨[s'], .last (garbled_noEOL ht h' hl) ?_, .cons h' .nil⟩
    rintro rfl
    have := (garbled_length ht h').1
    exact hne (List.length_eq_zero_iff.1 (by simpa using this))
  | lf hl _ ih =>
    intro s' h'
    obtain ⟨l', r', rfl, h1, h2⟩ := garbled_append h'
    obtain ⟨r, rfl, h3⟩ := garbled_cons_ascii ht (by omega) h2
    obtain ⟨ls', h4, h5⟩ := ih h3
    exact ⟨l' :: ls', .lf (garbled_noEOL ht h1 hl) h4, .cons h1 h5⟩
  | crlf hl _ ih =>
    intro s' h'
    obtain ⟨l', r', rfl, h1, h2⟩ := garbled_append h'
    obtain ⟨r, rfl, h3⟩ := garbled_cons_ascii ht (by omega) h2
    obtain ⟨r2, rfl, h3'⟩ := garbled_cons_ascii ht (by omega) h3
    obtain ⟨ls', h4, h5⟩ := ih h3'
    exact ⟨l' :: ls', .crlf (garbled_noEOL ht h1 hl) h4, .cons h1 h5⟩
  | cr hl _ hs ih =>
    intro s' h'
    obtain ⟨l', r', rfl, h1, h2⟩ := garbled_append h'
    obtain ⟨r, rfl, h3⟩ := garbled_cons_ascii ht (by omega) h2
    obtain ⟨ls', h4, h5⟩ := ih h3
    exact ⟨l' :: ls', .cr (garbled_noEOL ht h1 hl) h4 (garbled_head ht h3 (by omega) hs), .cons h1 h5⟩

/-! A record with other characters is no record in the code page. -/

theorem split_front (p : Nat → Bool) : ∀ l : Str, ∃ w m, l = w ++ m ∧ (∀ c ∈ w, p c = true) ∧
    ∀ c, m.head? = some c → p c = false
  | [] => ⟨[], [], rfl, by simp, by simp⟩
  | c :: l => by
    cases hc : p c with
    | false => exact ⟨[], c :: l, rfl, by simp, by simpa using hc⟩
    | true =>
      obtain ⟨w, m, rfl, h1, h2⟩ := split_front p l
      exact ⟨c :: w, m, rfl, by simpa using ⟨hc, h1⟩, h2⟩

theorem split_back (p : Nat → Bool) (l : Str) : ∃ m w, l = m ++ w ∧ (∀ c ∈ w, p c = true) ∧
    ∀ c, m.getLast? = some c → p c = false := by
  obtain ⟨w, m, h, h1, h2⟩ := split_front p l.reverse
  refine ⟨m.reverse, w.reverse, ?_, by simpa using h1, by simpa using h2⟩
  rw [← List.reverse_append, ← h, List.reverse_reverse]

section
variable [PyUnicode]

theorem wellShaped_strip {l : Str} (h : WellShaped l) : IsRecord (strip l) := by
  obtain ⟨u, hp, hr⟩ := h
  rw [strip_of_padded hp (isRecord_head hr) (isRecord_last hr)]
  exact hr

theorem garbled_record {t : CodePage} (ht : ExtendsAscii t) (hn : LeadsAreLetters t) {l l' : Str} (h : Garbled t l l')
    (hl : WellShaped l) (hl' : WellShaped l') : ∀ c ∈ l, c < 128 := by
  let p : Nat → Bool := fun c => decide (c < 128) && isSpace c
  have hp : ∀ c, p c = true ↔ c < 128 ∧ isSpace c = true := by intro c; simp [p]
  have r := wellShaped_strip hl
  have r' := wellShaped_strip hl'
  obtain ⟨w, m, rfl, hw, hm⟩ := split_front p l
  obtain ⟨w', m', rfl, g1, g2⟩ := garbled_append h
  have hwa : ∀ c ∈ w, c < 128 := fun c hc => ((hp c).1 (hw c hc)).1
  have hws : AllSpace w := fun c hc => ((hp c).1 (hw c hc)).2
  cases garbled_ascii ht g1 hwa
  rw [strip_space_append hws] at r r'
  obtain ⟨n, v, rfl, hv, hlast⟩ := split_back p m
  obtain ⟨n', v', rfl, g3, g4⟩ := garbled_append g2
  have hva : ∀ c ∈ v, c < 128 := fun c hc => ((hp c).1 (hv c hc)).1
  have hvs : AllSpace v := fun c hc => ((hp c).1 (hv c hc)).2
  cases garbled_ascii ht g4 hva
  rw [strip_append_space hvs] at r r'
  cases n with
  | nil => exact absurd r.length (by simp [strip, rstrip, lstrip])
  | cons c k =>
    -- the first character
    obtain ⟨z, k', rfl, g5, g6⟩ := garbled_append (x := [c]) (y := k) g3
    have hz : z = [c] ∧ isSpace c = false ∧ c < 128 := by
      cases g5 with
      | cons e1 e2 e3 =>
        cases e3
        rcases garbled_char ht e1 e2 with ⟨e4, rfl⟩ | ⟨_, x, d, ds, rfl, hx, x1, x2, hd, _⟩
        · refine ⟨rfl, ?_, e4⟩
          have := hm c (by simp)
          cases hs : isSpace c with
          | false => rfl
          | true => rw [(hp c).2 ⟨e4, hs⟩] at this; cases this
        · exfalso
          have hns := (hn x d x1 x2 hx).2
          have hnl : NoLeadingSpace (d :: ds ++ [] ++ k') := by
            intro e he
            simp only [List.append_nil, List.cons_append, List.head?_cons, Option.some.injEq] at he
            subst he; exact hns
          obtain ⟨ws, he, _⟩ := eq_strip_append hnl
          have hf := r'.first
          generalize strip (d :: ds ++ [] ++ k') = u at he hf
          cases u with
          | nil => simp at hf
          | cons a u =>
            simp only [List.append_nil, List.cons_append, List.cons.injEq] at he
            simp only [List.head?_cons, Option.some.injEq] at hf
            omega
    obtain ⟨rfl, hcs, hc⟩ := hz
    have hnl : NoLeadingSpace ([c] ++ k') := by
      intro e he
      simp only [List.cons_append, List.nil_append, List.head?_cons, Option.some.injEq] at he
      subst he; exact hcs
    obtain ⟨i, e, hi⟩ : ∃ i e, c :: k = i ++ [e] := ⟨_, _, (List.dropLast_concat_getLast (by simp)).symm⟩
    -- the last character
    have g3' : Garbled t (i ++ [e]) ([c] ++ k') := hi ▸ g3
    obtain ⟨i', y, hi', g7, g8⟩ := garbled_append g3'
    have hel : (c :: k).getLast? = some e := by rw [hi]; simp
    have hy : y = [e] ∧ isSpace e = false := by
      cases g8 with
      | cons e1 e2 e3 =>
        cases e3
        rcases garbled_char ht e1 e2 with ⟨e4, rfl⟩ | ⟨_, x, d, ds, rfl, hx, x1, x2, hd, _, hds, _⟩
        · refine ⟨rfl, ?_⟩
          have := hlast e hel
          cases hs : isSpace e with
          | false => rfl
          | true => rw [(hp e).2 ⟨e4, hs⟩] at this; cases this
        · exfalso
          obtain ⟨hnn, hns⟩ := hn x d x1 x2 hx
          obtain ⟨ws, he, hws'⟩ := eq_strip_append hnl
          have hd' : d ∉ ws := fun hmem => by rw [hws' d hmem] at hns; cases hns
          rw [hi', List.append_nil] at he
          have hlen := r'.length
          have htail := r'.tail
          rw [hi', List.append_nil] at hlen htail
          generalize strip (i' ++ d :: ds) = u at he hlen htail
          rcases List.append_eq_append_iff.1 he with ⟨a, h1, h2⟩ | ⟨a, h1, h2⟩
          · cases a with
            | nil => exact hd' (by rw [List.nil_append] at h2; rw [← h2]; simp)
            | cons b a =>
              simp only [List.cons_append, List.cons.injEq] at h2
              obtain ⟨rfl, h2⟩ := h2
              have hal : a.length ≤ 3 := by
                have := congrArg List.length h2
                simp only [List.length_append] at this
                omega
              rw [h1] at hlen htail
              simp only [List.length_append, List.length_cons] at hlen
              have := htail d (by rw [List.drop_append_of_le_length (by omega)]; simp)
              rw [this] at hnn; cases hnn
          · exact hd' (by rw [h2]; simp)
    obtain ⟨rfl, hes⟩ := hy
    -- between them nothing is stripped
    have s1 : strip (c :: k) = c :: k :=
      strip_of_padded ⟨[], [], by simp, by simp [AllSpace], by simp [AllSpace]⟩ (by simpa using hcs)
        (by rw [hel]; simpa using hes)
    have s2 : strip ([c] ++ k') = [c] ++ k' :=
      strip_of_padded ⟨[], [], by simp, by simp [AllSpace], by simp [AllSpace]⟩ hnl
        (by rw [hi']; simpa using hes)
    have l1 := r.length
    have l2 := r'.length
    rw [s1] at l1
    rw [s2] at l2
    have := (garbled_length ht g3).2 (by rw [l1, l2])
    intro a ha
    simp only [List.mem_append] at ha
    rcases ha with ha | ha | ha
    · exact hwa a ha
    · exact this a ha
    · exact hva a ha

/-- what is read of the lines in the code page: those of ASCII -/
theorem garbled_same {t : CodePage} (ht : ExtendsAscii t) (hn : LeadsAreLetters t) {ls ls' : List Str}
    (h : GarbledLines t ls ls') (hr : ∀ l ∈ ls, (∀ c ∈ l, c < 128) ∨ WellShaped l) :
    (∀ output legs, parseLines output ls' legs =
      parseLines output (ls.filter fun l => l.all fun c => decide (c < 128)) legs) ∧
    ∀ filters n, searchLines filters ls' n =
      searchLines filters (ls.filter fun l => l.all fun c => decide (c < 128)) n := by
  induction h with
  | nil => exact ⟨fun _ _ => rfl, fun _ _ => rfl⟩
  | @cons l l' ls ls' g _ ih =>
    obtain ⟨i1, i2⟩ := ih fun m hm => hr m (by simp [hm])
    by_cases ha : ∀ c ∈ l, c < 128
    · cases garbled_ascii ht g ha
      rw [List.filter_cons_of_pos (by simpa using ha)]
      refine ⟨fun output legs => ?_, fun filters n => ?_⟩
      · simp only [parseLines, i1]
      · simp only [searchLines, i2]
    · rw [List.filter_cons_of_neg (by simpa using ha)]
      have hw : WellShaped l := (hr l (by simp)).resolve_left ha
      have hj : ∀ m ∈ [l'], ¬ (WellShaped m ∧ ∃ k, Resolves m k) := by
        intro m hm
        simp only [List.mem_singleton] at hm
        subst hm
        exact fun h => ha (garbled_record ht hn g hw h.1)
      refine ⟨fun output legs => ?_, fun filters n => ?_⟩
      · rw [← i1]
        have := parseLines_insert hj output [] ls' legs
        simpa using this
      · rw [← i2]
        have := searchLines_insert hj filters [] ls' n
        simpa using this

end
end Arinc
