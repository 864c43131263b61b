import Verif.Spec.Table
import Verif.Model.Table
/-!
# The text of the table: lemmas
-/
namespace Arinc
open Py Spec

/-! ## reading it back -/

theorem cut_at {x : ℕ} {s t s' t' : Str} (hs : x ∉ s) (ht : x ∉ t) (h : s ++ x :: s' = t ++ x :: t') :
    s = t ∧ s' = t' := by
  induction s generalizing t with
  | nil =>
    cases t with
    | nil => simpa using h
    | cons c t =>
      simp only [List.nil_append, List.cons_append, List.cons.injEq] at h
      exact absurd (by simp [h.1]) ht
  | cons d s ih =>
    cases t with
    | nil =>
      simp only [List.nil_append, List.cons_append, List.cons.injEq] at h
      exact absurd (by simp [h.1]) hs
    | cons c t =>
      simp only [List.cons_append, List.cons.injEq] at h
      obtain ⟨h1, h2⟩ := ih (fun hx => hs (by simp [hx])) (fun hx => ht (by simp [hx])) h.2
      exact ⟨by rw [h.1, h1], h2⟩

theorem joined_inj {ls ls' : List Str} {s : Str} (h : Joined ls s) (h' : Joined ls' s) : ls = ls' := by
  induction h generalizing ls' with
  | @one l hl =>
    cases h' with
    | one => rfl
    | @more l' s' ls' hl' hs' => exact absurd (by simp) hl
  | @more l s ls hl hs ih =>
    generalize ht : l ++ 10 :: s = t at h'
    cases h' with
    | one hl' => rw [← ht] at hl'; exact absurd (by simp) hl'
    | @more l' s' ls' hl' hs' =>
      obtain ⟨h1, h2⟩ := cut_at hl hl' ht
      subst h2
      rw [h1, ih hs']

theorem rule_inj {a b c a' b' c' : ℕ} {l : Str} (h : IsRule a b c l) (h' : IsRule a' b' c' l) :
    a = a' ∧ b = b' ∧ c = c' := by
  have no : ∀ n, (43 : ℕ) ∉ List.replicate n 45 := by
    intro n hn; rw [List.mem_replicate] at hn; omega
  have len : ∀ {m n : ℕ}, List.replicate (m + 2) (45 : ℕ) = List.replicate (n + 2) 45 → m = n := by
    intro m n h
    have := congrArg List.length h
    simpa using this
  unfold IsRule at h h'
  rw [h] at h'
  simp only [List.append_assoc, List.cons_append, List.nil_append, List.cons.injEq, true_and] at h'
  obtain ⟨h1, h2⟩ := cut_at (no _) (no _) h'
  obtain ⟨h3, h4⟩ := cut_at (no _) (no _) h2
  obtain ⟨h5, _⟩ := cut_at (no _) (no _) h4
  exact ⟨len h1, len h3, len h5⟩

theorem filled_same {n : ℕ} {s s' t : Str} (h : Filled n s t) (h' : Filled n s' t) : SameButBlanks s s' := by
  obtain ⟨m, h1, _⟩ := h
  obtain ⟨m', h2, _⟩ := h'
  exact ⟨m, m', by rw [← h1, ← h2]⟩

theorem holds_same {a b c : ℕ} {x y z x' y' z' l : Str} (h : Holds a b c x y z l) (h' : Holds a b c x' y' z' l) :
    SameButBlanks x x' ∧ SameButBlanks y y' ∧ SameButBlanks z z' := by
  obtain ⟨u, v, w, h1, h2, h3, h4⟩ := h
  obtain ⟨u', v', w', h1', h2', h3', h4'⟩ := h'
  rw [h4] at h4'
  have l1 : u.length = u'.length := by obtain ⟨_, _, e⟩ := h1; obtain ⟨_, _, e'⟩ := h1'; omega
  have l2 : v.length = v'.length := by obtain ⟨_, _, e⟩ := h2; obtain ⟨_, _, e'⟩ := h2'; omega
  have l3 : w.length = w'.length := by obtain ⟨_, _, e⟩ := h3; obtain ⟨_, _, e'⟩ := h3'; omega
  simp only [List.append_assoc, List.cons_append, List.nil_append, List.cons.injEq, true_and] at h4'
  obtain ⟨e1, h5⟩ := List.append_inj h4' l1
  simp only [List.cons.injEq, true_and] at h5
  obtain ⟨e2, h6⟩ := List.append_inj h5 l2
  simp only [List.cons.injEq, true_and] at h6
  obtain ⟨e3, _⟩ := List.append_inj h6 l3
  subst e1 e2 e3
  exact ⟨filled_same h1 h1', filled_same h2 h2', filled_same h3 h3'⟩

theorem quoted_same {v v' : Str} (h : SameButBlanks (py!"'" ++ v ++ py!"'") (py!"'" ++ v' ++ py!"'")) : v = v' := by
  obtain ⟨m, n, h⟩ := h
  have key : ∀ {m n : ℕ} {s s' : Str}, List.replicate m 32 ++ 39 :: s = List.replicate n (32 : ℕ) ++ 39 :: s' → s = s' := by
    intro m n s s' h
    have no : ∀ n, (39 : ℕ) ∉ List.replicate n 32 := by
      intro n hn; rw [List.mem_replicate] at hn; omega
    exact (cut_at (no _) (no _) h).2
  have h' := congrArg List.reverse h
  simp only [List.reverse_append, List.reverse_replicate, List.reverse_cons, List.nil_append,
    List.cons_append, List.append_assoc] at h'
  have := key h'
  simpa using this

/-- the first character of the second cell is a quote -/
def Marked (a : ℕ) (l : Str) : Prop := l[a + 5]? = some 39

theorem marked_iff {a b c : ℕ} {x y z l : Str} (h : Holds a b c x y z l) (hb : 0 < b) :
    Marked a l ↔ y.head? = some 39 := by
  obtain ⟨u, v, w, ⟨_, _, h1⟩, ⟨m, h2, h2'⟩, _, rfl⟩ := h
  have hv : (py!"| " ++ u ++ py!" | " ++ v ++ py!" | " ++ w ++ py!" |")[a + 5]? = v[0]? := by
    have e : (py!"| " ++ u ++ py!" | ").length = a + 5 := by simp [h1]
    rw [List.append_assoc, List.append_assoc, List.append_assoc, List.getElem?_append_right (by omega), e,
      Nat.sub_self, List.getElem?_append_left (by omega)]
  unfold Marked
  rw [hv, h2]
  cases y with
  | nil =>
    cases m with
    | zero => simp [h2] at h2'; omega
    | succ m => simp [List.replicate_succ]
  | cons d y => simp

theorem blocks_inj {α : Type} {M : α → Prop} {bs bs' : List (List α)}
    (h : ∀ b ∈ bs, ∃ x xs, b = x :: xs ∧ M x ∧ ∀ y ∈ xs, ¬ M y)
    (h' : ∀ b ∈ bs', ∃ x xs, b = x :: xs ∧ M x ∧ ∀ y ∈ xs, ¬ M y) (he : bs.flatten = bs'.flatten) : bs = bs' := by
  have split : ∀ {xs xs' : List α} {ys ys' : List α}, (∀ y ∈ xs, ¬ M y) → (∀ y ∈ xs', ¬ M y) →
      (∀ y, ys.head? = some y → M y) → (∀ y, ys'.head? = some y → M y) → xs ++ ys = xs' ++ ys' → xs = xs' ∧ ys = ys' := by
    intro xs
    induction xs with
    | nil =>
      intro xs' ys ys' _ h2 h3 _ e
      cases xs' with
      | nil => exact ⟨rfl, by simpa using e⟩
      | cons x xs' =>
        rw [List.nil_append] at e
        exact absurd (h3 x (by rw [e]; rfl)) (h2 x (by simp))
    | cons x xs ih =>
      intro xs' ys ys' h1 h2 h3 h4 e
      cases xs' with
      | nil =>
        rw [List.nil_append] at e
        exact absurd (h4 x (by rw [← e]; rfl)) (h1 x (by simp))
      | cons x' xs' =>
        simp only [List.cons_append, List.cons.injEq] at e
        obtain ⟨e1, e2⟩ := ih (fun y hy => h1 y (by simp [hy])) (fun y hy => h2 y (by simp [hy])) h3 h4 e.2
        exact ⟨by rw [e.1, e1], e2⟩
  have first : ∀ {bs : List (List α)}, (∀ b ∈ bs, ∃ x xs, b = x :: xs ∧ M x ∧ ∀ y ∈ xs, ¬ M y) →
      ∀ y, bs.flatten.head? = some y → M y := by
    intro bs hbs y hy
    cases bs with
    | nil => cases hy
    | cons b bs =>
      obtain ⟨x, xs, rfl, hx, _⟩ := hbs b (by simp)
      simp only [List.flatten_cons, List.cons_append, List.head?_cons, Option.some.injEq] at hy
      rwa [← hy]
  induction bs generalizing bs' with
  | nil =>
    cases bs' with
    | nil => rfl
    | cons b bs' =>
      obtain ⟨x, xs, rfl, _⟩ := h' b (by simp)
      cases he
  | cons b bs ih =>
    cases bs' with
    | nil =>
      obtain ⟨x, xs, rfl, _⟩ := h b (by simp)
      cases he
    | cons b' bs' =>
      obtain ⟨x, xs, rfl, hx, hxs⟩ := h b (by simp)
      obtain ⟨x', xs', rfl, hx', hxs'⟩ := h' b' (by simp)
      simp only [List.flatten_cons, List.cons_append, List.cons.injEq] at he
      have hb := fun b hb => h b (List.mem_cons_of_mem _ hb)
      have hb' := fun b hb => h' b (List.mem_cons_of_mem _ hb)
      obtain ⟨e1, e2⟩ := split hxs hxs' (first hb) (first hb') he.2
      rw [he.1, e1, ih hb hb' e2]

theorem sound_head {r : Line3} (h : Sound r) : r.value.head? = some 39 := by
  obtain ⟨v, _, e⟩ := h.value
  rw [e]; rfl

theorem rowLines_block {a b c : ℕ} (hb : 0 < b) {r : Line3} (hr : Sound r) {ls : List Str} (h : RowLines a b c r ls) :
    ∃ x xs, ls = x :: xs ∧ Marked a x ∧ ∀ y ∈ xs, ¬ Marked a y := by
  cases h with
  | @mk d l ds ls hd hl hs =>
    refine ⟨l, ls, rfl, (marked_iff hl hb).2 (sound_head hr), fun y hy => ?_⟩
    clear hd hl
    induction hs with
    | nil => cases hy
    | cons h t ih =>
      rcases List.mem_cons.1 hy with rfl | hy
      · rw [marked_iff h hb]; simp
      · exact ih hy

theorem forall₂_same {a b c : ℕ} {ds ds' ls : List Str} (h : List.Forall₂ (Holds a b c [] []) ds ls)
    (h' : List.Forall₂ (Holds a b c [] []) ds' ls) : List.Forall₂ SameButBlanks ds ds' := by
  induction h generalizing ds' with
  | nil => cases h'; exact .nil
  | cons h t ih =>
    cases h' with
    | cons h' t' => exact .cons (holds_same h h').2.2 (ih t')

theorem rowLines_same {a b c : ℕ} {r r' : Line3} (hr : Sound r) (hr' : Sound r') {ls : List Str}
    (h : RowLines a b c r ls) (h' : RowLines a b c r' ls) : SameRow r r' := by
  cases h with
  | mk hd hl hs =>
    cases h' with
    | mk hd' hl' hs' =>
      obtain ⟨h1, h2, h3⟩ := holds_same hl hl'
      refine ⟨h1, ?_, _, _, hd, hd', .cons h3 (forall₂_same hs hs')⟩
      obtain ⟨v, _, e⟩ := hr.value
      obtain ⟨v', _, e'⟩ := hr'.value
      rw [e, e'] at h2
      rw [e, e', quoted_same h2]

theorem drawn_same {a b c a' b' c' : ℕ} {rows rows' : List Line3} {t : Str} (hs : ∀ r ∈ rows, Sound r)
    (hs' : ∀ r ∈ rows', Sound r) (h : Drawn a b c rows t) (h' : Drawn a' b' c' rows' t) :
    List.Forall₂ SameRow rows rows' := by
  cases h with
  | @mk rule head _ body hr hh hb ht =>
  cases h' with
  | @mk rule' head' _ body' hr' hh' hb' ht' =>
    have e := joined_inj ht ht'
    simp only [List.cons.injEq] at e
    obtain ⟨e1, _, _, e2⟩ := e
    subst e1
    obtain ⟨rfl, rfl, rfl⟩ := rule_inj hr hr'
    have hb0 : 0 < b := by
      obtain ⟨_, v, _, _, ⟨m, e, l⟩, _⟩ := hh
      rw [e] at l
      simp at l; omega
    have e3 : body.flatten = body'.flatten := List.append_cancel_right e2
    have blk : ∀ {rows : List Line3} {body : List (List Str)}, (∀ r ∈ rows, Sound r) →
        List.Forall₂ (RowLines a b c) rows body → ∀ b ∈ body, ∃ x xs, b = x :: xs ∧ Marked a x ∧ ∀ y ∈ xs, ¬ Marked a y := by
      intro rows body hs hb
      induction hb with
      | nil => intro b hb; cases hb
      | cons h t ih =>
        intro b hb
        rcases List.mem_cons.1 hb with rfl | hb
        · exact rowLines_block hb0 (hs _ (by simp)) h
        · exact ih (fun r hr => hs r (by simp [hr])) b hb
    have e4 := blocks_inj (blk hs hb) (blk hs' hb') e3
    subst e4
    clear e2 e3 ht ht' hh hh' blk
    induction hb generalizing rows' with
    | nil => cases hb'; exact .nil
    | cons h t ih =>
      cases hb' with
      | cons h' t' =>
        exact .cons (rowLines_same (hs _ (by simp)) (hs' _ (by simp)) h h')
          (ih (fun r hr => hs r (by simp [hr])) (fun r hr => hs' r (by simp [hr])) t')

/-! ## the lines of a text -/

theorem joined_cons {c : ℕ} (hc : c ≠ 10) {l s : Str} {ls : List Str} (h : Joined (l :: ls) s) :
    Joined ((c :: l) :: ls) (c :: s) := by
  cases h with
  | one h => exact .one (by simp [h, Ne.symm hc])
  | more h hs => exact .more (l := c :: l) (by simp [h, Ne.symm hc]) hs

theorem linesOf_joined (s : Str) : Joined (linesOf s) s := by
  induction s with
  | nil => exact Joined.one (l := []) (by decide)
  | cons c s ih =>
    unfold linesOf splitLF
    split
    · next h => subst h; exact .more (l := []) (by simp) ih
    · next h => exact joined_cons h ih

theorem linesOf_single {s : Str} (h : 10 ∉ s) : linesOf s = [s] := joined_inj (linesOf_joined s) (.one h)

theorem joined_mem {ls : List Str} {s : Str} (h : Joined ls s) : ∀ l ∈ ls, 10 ∉ l ∧ ∀ c ∈ l, c ∈ s := by
  induction h with
  | one h => intro l hl; rw [List.mem_singleton] at hl; subst hl; exact ⟨h, fun c hc => hc⟩
  | @more l s ls h hs ih =>
    intro m hm
    rcases List.mem_cons.1 hm with rfl | hm
    · exact ⟨h, fun c hc => by simp [hc]⟩
    · exact ⟨(ih m hm).1, fun c hc => by simp [(ih m hm).2 c hc]⟩

theorem joinLF_joined {ls : List Str} (hne : ls ≠ []) (h : ∀ l ∈ ls, 10 ∉ l) : Joined ls (joinLF ls) := by
  induction ls with
  | nil => exact absurd rfl hne
  | cons l ls ih =>
    cases ls with
    | nil => exact .one (h l (by simp))
    | cons m ls => exact .more (h l (by simp)) (ih (by simp) fun l hl => h l (by simp [hl]))

/-! ## widths -/

theorem foldl_max_le (l : List ℤ) (i : ℤ) : i ≤ l.foldl max i ∧ ∀ x ∈ l, x ≤ l.foldl max i := by
  induction l generalizing i with
  | nil => exact ⟨le_refl _, fun x hx => by cases hx⟩
  | cons y l ih =>
    obtain ⟨h1, h2⟩ := ih (max i y)
    simp only [List.foldl_cons]
    refine ⟨by omega, fun x hx => ?_⟩
    rcases List.mem_cons.1 hx with rfl | hx
    · omega
    · exact h2 x hx

theorem foldl_max_mem (l : List ℤ) (i : ℤ) : l.foldl max i = i ∨ l.foldl max i ∈ l := by
  induction l generalizing i with
  | nil => exact Or.inl rfl
  | cons y l ih =>
    simp only [List.foldl_cons, List.mem_cons]
    rcases ih (max i y) with h | h
    · rcases max_choice i y with e | e <;> rw [h, e] <;> simp
    · exact Or.inr (Or.inr h)

theorem cellWidth_le (width : Str → ℤ) (s : Str) : ∀ l ∈ linesOf s, width l ≤ cellWidth width s := by
  intro l hl
  obtain ⟨h1, h2⟩ := foldl_max_le ((splitLF s).2.map width) (width (splitLF s).1)
  rcases List.mem_cons.1 hl with rfl | hl
  · exact h1
  · exact h2 _ (List.mem_map.2 ⟨l, hl, rfl⟩)

theorem cellWidth_mem (width : Str → ℤ) (s : Str) : ∃ l ∈ linesOf s, width l = cellWidth width s := by
  rcases foldl_max_mem ((splitLF s).2.map width) (width (splitLF s).1) with h | h
  · exact ⟨_, by simp [linesOf], h.symm⟩
  · obtain ⟨l, hl, e⟩ := List.mem_map.1 h
    exact ⟨l, by simp [linesOf, hl], e⟩

/-- the width of one column -/
def columnWidth (width : Str → ℤ) (h : Str) (cs : List Str) : ℤ :=
  (cs.map (cellWidth width)).foldl max (cellWidth width h)

theorem columnWidth_le (width : Str → ℤ) (h : Str) (cs : List Str) :
    ∀ c ∈ h :: cs, ∀ l ∈ linesOf c, width l ≤ columnWidth width h cs := by
  intro c hc l hl
  obtain ⟨h1, h2⟩ := foldl_max_le (cs.map (cellWidth width)) (cellWidth width h)
  have h3 := cellWidth_le width c l hl
  rcases List.mem_cons.1 hc with rfl | hc
  · exact le_trans h3 h1
  · exact le_trans h3 (h2 _ (List.mem_map.2 ⟨c, hc, rfl⟩))

theorem columnWidth_mem (width : Str → ℤ) (h : Str) (cs : List Str) :
    ∃ c ∈ h :: cs, ∃ l ∈ linesOf c, width l = columnWidth width h cs := by
  rcases foldl_max_mem (cs.map (cellWidth width)) (cellWidth width h) with e | e
  · obtain ⟨l, hl, e'⟩ := cellWidth_mem width h
    exact ⟨h, by simp, l, hl, by rw [e']; exact e.symm⟩
  · obtain ⟨c, hc, e'⟩ := List.mem_map.1 e
    obtain ⟨l, hl, e''⟩ := cellWidth_mem width c
    exact ⟨c, by simp [hc], l, hl, by rw [e'', e']; rfl⟩

/-- the cells of a row -/
def cells3 (r : Line3) : List Str := [r.name, r.value, r.decoded]

theorem columnWidths_three (width : Str → ℤ) (h1 h2 h3 : Str) (rows : List Line3) :
    columnWidths width [h1, h2, h3] (rows.map cells3) =
      [columnWidth width h1 (rows.map (·.name)), columnWidth width h2 (rows.map (·.value)),
        columnWidth width h3 (rows.map (·.decoded))] := by
  unfold columnWidths columnWidth
  simp only [List.map_cons, List.map_nil]
  generalize cellWidth width h1 = a
  generalize cellWidth width h2 = b
  generalize cellWidth width h3 = c
  induction rows generalizing a b c with
  | nil => rfl
  | cons r rows ih =>
    simp only [List.map_cons, List.foldl_cons, cells3, List.zipWith_cons_cons, List.zipWith_nil_left]
    exact ih _ _ _

theorem columnWidth_ascii {width : Str → ℤ} (hw : AsciiWidth width) (h : Str) (cs : List Str)
    (hp : ∀ c ∈ h :: cs, ∀ x ∈ c, Plain x) :
    ∃ n : ℕ, columnWidth width h cs = n ∧ Widest n ((h :: cs).flatMap linesOf) := by
  have hl : ∀ c ∈ h :: cs, ∀ l ∈ linesOf c, width l = l.length := by
    intro c hc l hl
    refine hw l fun x hx => ?_
    obtain ⟨h1, h2⟩ := joined_mem (linesOf_joined c) l hl
    rcases hp c hc x (h2 x hx) with e | e
    · exact absurd (e ▸ hx) h1
    · exact e
  obtain ⟨c, hc, l, hlc, e⟩ := columnWidth_mem width h cs
  refine ⟨l.length, by rw [← e, hl c hc l hlc], fun m hm => ?_, l, List.mem_flatMap.2 ⟨c, hc, hlc⟩, rfl⟩
  obtain ⟨d, hd, hm⟩ := List.mem_flatMap.1 hm
  have := columnWidth_le width h cs d hd m hm
  rw [← e, hl c hc l hlc, hl d hd m hm] at this
  exact_mod_cast this

/-! ## drawing -/

theorem filled_justify {width : Str → ℤ} (hw : AsciiWidth width) {n : ℕ} {s : Str} (hs : Printable s)
    (h : s.length ≤ n) : Filled n s (justify width n s) := by
  refine ⟨_, rfl, ?_⟩
  unfold justify
  rw [hw s hs]
  simp only [List.length_append, List.length_replicate]
  omega

theorem holds_line {width : Str → ℤ} (hw : AsciiWidth width) {a b c : ℕ} {x y z : Str} (hx : Printable x)
    (hy : Printable y) (hz : Printable z) (ha : x.length ≤ a) (hb : y.length ≤ b) (hc : z.length ≤ c) :
    Holds a b c x y z (tableLine width [(a : ℤ), (b : ℤ), (c : ℤ)] [x, y, z]) := by
  refine ⟨_, _, _, filled_justify hw hx ha, filled_justify hw hy hb, filled_justify hw hz hc, ?_⟩
  simp [tableLine]

theorem rule_is (a b c : ℕ) : IsRule a b c (tableRule [(a : ℤ), (b : ℤ), (c : ℤ)]) := by
  have : ∀ n : ℕ, ((n : ℤ) + 2).toNat = n + 2 := by intro n; omega
  simp [tableRule, IsRule, this]

theorem holds_noLF {a b c : ℕ} {x y z l : Str} (hx : 10 ∉ x) (hy : 10 ∉ y) (hz : 10 ∉ z) (h : Holds a b c x y z l) :
    10 ∉ l := by
  have fill : ∀ {n : ℕ} {s t : Str}, 10 ∉ s → Filled n s t → 10 ∉ t := by
    intro n s t hs ⟨m, h, _⟩
    rw [h]
    simp [hs]
  obtain ⟨x', y', z', h1, h2, h3, rfl⟩ := h
  simp [fill hx h1, fill hy h2, fill hz h3]

theorem rule_noLF {a b c : ℕ} {l : Str} (h : IsRule a b c l) : 10 ∉ l := by
  rw [h]; simp

theorem printable_noLF {s : Str} (h : Printable s) : 10 ∉ s := fun hc => by have := h 10 hc; omega

theorem printable_quoted {v : Str} (h : Printable v) : Printable (py!"'" ++ v ++ py!"'") := by
  intro c hc
  simp only [List.mem_append, List.mem_cons, List.not_mem_nil, or_false] at hc
  rcases hc with (rfl | hc) | rfl
  · omega
  · exact h c hc
  · omega

theorem range_rows {α : Type} (f : Str → α) (ds : List Str) :
    (List.range ds.length).map (fun y => f ((ds[y]?).getD [])) = ds.map f := by
  induction ds with
  | nil => rfl
  | cons d ds ih =>
    rw [List.length_cons, List.range_succ_eq_map, List.map_cons, List.map_map]
    simp only [List.map_cons]
    rw [← ih]
    rfl

theorem row_lines {width : Str → ℤ} (hw : AsciiWidth width) {a b c : ℕ} {r : Line3} (hr : Sound r)
    (ha : r.name.length ≤ a) (hb : r.value.length ≤ b) (hc : ∀ l ∈ linesOf r.decoded, l.length ≤ c) :
    RowLines a b c r (tableRow width [(a : ℤ), (b : ℤ), (c : ℤ)] (cells3 r)) ∧
      ∀ l ∈ tableRow width [(a : ℤ), (b : ℤ), (c : ℤ)] (cells3 r), 10 ∉ l := by
  have hn := linesOf_single (printable_noLF hr.name)
  have hpv : Printable r.value := by obtain ⟨v, hv, e⟩ := hr.value; rw [e]; exact printable_quoted hv
  have hv := linesOf_single (printable_noLF hpv)
  have hj := linesOf_joined r.decoded
  have hd : ∀ l ∈ linesOf r.decoded, Printable l := by
    intro l hl x hx
    obtain ⟨h1, h2⟩ := joined_mem hj l hl
    rcases hr.decoded x (h2 x hx) with e | e
    · exact absurd (e ▸ hx) h1
    · exact e
  obtain ⟨d, ds, e⟩ : ∃ d ds, linesOf r.decoded = d :: ds := ⟨_, _, rfl⟩
  have nil : Printable [] := fun c hc => by cases hc
  have hrow : tableRow width [(a : ℤ), (b : ℤ), (c : ℤ)] (cells3 r) =
      tableLine width [(a : ℤ), (b : ℤ), (c : ℤ)] [r.name, r.value, d] ::
        ds.map fun x => tableLine width [(a : ℤ), (b : ℤ), (c : ℤ)] [[], [], x] := by
    have hh : (([r.name, r.value, r.decoded].map fun c => (linesOf c).length).foldl max 0) = ds.length + 1 := by
      simp [hn, hv, e]
    unfold tableRow
    simp only [cells3, hh]
    rw [List.range_succ_eq_map, List.map_cons, List.map_map]
    simp only [List.map_cons, List.map_nil, hn, hv, e]
    rw [← range_rows]
    rfl
  rw [hrow]
  rw [e] at hj hd hc
  have h0 := holds_line hw (a := a) (b := b) (c := c) hr.name hpv (hd d (by simp)) ha hb (hc d (by simp))
  have h1 : ∀ x ∈ ds, Holds a b c [] [] x (tableLine width [(a : ℤ), (b : ℤ), (c : ℤ)] [[], [], x]) := fun x hx =>
    holds_line hw nil nil (hd x (by simp [hx])) (by simp) (by simp) (hc x (by simp [hx]))
  refine ⟨.mk hj h0 ?_, fun l hl => ?_⟩
  · clear hj hd hc hrow e h0
    induction ds with
    | nil => exact .nil
    | cons x ds ih => exact .cons (h1 x (by simp)) (ih fun y hy => h1 y (by simp [hy]))
  · rcases List.mem_cons.1 hl with rfl | hl
    · exact holds_noLF (printable_noLF hr.name) (printable_noLF hpv) (printable_noLF (hd d (by simp))) h0
    · obtain ⟨x, hx, rfl⟩ := List.mem_map.1 hl
      exact holds_noLF (by simp) (by simp) (printable_noLF (hd x (by simp [hx]))) (h1 x hx)

theorem drawn_string {width : Str → ℤ} (hw : AsciiWidth width) {rows : List Line3} (hs : ∀ r ∈ rows, Sound r) :
    ∃ a b c, Drawn a b c rows (tableString width tableHead (rows.map cells3)) ∧
      Widest a (py!"Field" :: rows.map (·.name)) ∧ Widest b (py!"Value" :: rows.map (·.value)) ∧
      Widest c (py!"Decoded" :: rows.flatMap fun r => linesOf r.decoded) := by
  have hpv : ∀ r ∈ rows, Printable r.value := by
    intro r hr; obtain ⟨v, hv, e⟩ := (hs r hr).value; rw [e]; exact printable_quoted hv
  have plain : ∀ {s : Str}, Printable s → ∀ x ∈ s, Plain x := fun h x hx => Or.inr (h x hx)
  have head : ∀ h ∈ tableHead, Printable h := by unfold Printable; decide
  have sing : ∀ {h : Str} {cs : List Str}, Printable h → (∀ c ∈ cs, Printable c) → (h :: cs).flatMap linesOf = h :: cs := by
    intro h cs hh hc
    induction cs generalizing h with
    | nil => simp [linesOf_single (printable_noLF hh)]
    | cons c cs ih =>
      rw [List.flatMap_cons, linesOf_single (printable_noLF hh), ih (hc c (by simp)) fun c h => hc c (by simp [h])]
      rfl
  obtain ⟨a, ea, wa⟩ := columnWidth_ascii hw (py!"Field") (rows.map (·.name)) (by
    intro c hc
    rcases List.mem_cons.1 hc with rfl | hc
    · exact plain (head _ (by decide))
    · obtain ⟨r, hr, rfl⟩ := List.mem_map.1 hc; exact plain (hs r hr).name)
  obtain ⟨b, eb, wb⟩ := columnWidth_ascii hw (py!"Value") (rows.map (·.value)) (by
    intro c hc
    rcases List.mem_cons.1 hc with rfl | hc
    · exact plain (head _ (by decide))
    · obtain ⟨r, hr, rfl⟩ := List.mem_map.1 hc; exact plain (hpv r hr))
  obtain ⟨c, ec, wc⟩ := columnWidth_ascii hw (py!"Decoded") (rows.map (·.decoded)) (by
    intro c hc
    rcases List.mem_cons.1 hc with rfl | hc
    · exact plain (head _ (by decide))
    · obtain ⟨r, hr, rfl⟩ := List.mem_map.1 hc; exact (hs r hr).decoded)
  rw [sing (head _ (by decide)) (by
    intro c hc; obtain ⟨r, hr, rfl⟩ := List.mem_map.1 hc; exact (hs r hr).name)] at wa
  rw [sing (head _ (by decide)) (by
    intro c hc; obtain ⟨r, hr, rfl⟩ := List.mem_map.1 hc; exact hpv r hr)] at wb
  rw [List.flatMap_cons, linesOf_single (printable_noLF (head _ (by decide))), List.flatMap_map, List.singleton_append]
    at wc
  refine ⟨a, b, c, ?_, wa, wb, wc⟩
  have hrow := fun r hr => row_lines hw (a := a) (b := b) (c := c) (hs r hr)
    (wa.1 _ (List.mem_cons_of_mem _ (List.mem_map.2 ⟨r, hr, rfl⟩)))
    (wb.1 _ (List.mem_cons_of_mem _ (List.mem_map.2 ⟨r, hr, rfl⟩)))
    (fun l hl => wc.1 l (List.mem_cons_of_mem _ (List.mem_flatMap.2 ⟨r, hr, hl⟩)))
  have hhead := holds_line hw (a := a) (b := b) (c := c) (head (py!"Field") (by decide)) (head (py!"Value") (by decide))
    (head (py!"Decoded") (by decide)) (wa.1 _ (by simp)) (wb.1 _ (by simp)) (wc.1 _ (by simp))
  unfold tableString
  simp only [tableHead, columnWidths_three, ea, eb, ec]
  refine .mk (body := rows.map fun r => tableRow width [(a : ℤ), (b : ℤ), (c : ℤ)] (cells3 r)) (rule_is a b c) hhead ?_ ?_
  · clear wa wb wc ea eb ec hs hpv
    induction rows with
    | nil => exact .nil
    | cons r rows ih => exact .cons (hrow r (by simp)).1 (ih fun r hr => hrow r (by simp [hr]))
  · have e : (rows.map cells3).flatMap (tableRow width [(a : ℤ), (b : ℤ), (c : ℤ)]) =
        (rows.map fun r => tableRow width [(a : ℤ), (b : ℤ), (c : ℤ)] (cells3 r)).flatten := by
      rw [List.flatMap_map, List.flatMap_def]
    rw [e]
    refine joinLF_joined (by simp) fun l hl => ?_
    have hr := rule_noLF (rule_is a b c)
    simp only [List.mem_cons, List.mem_append, List.not_mem_nil, or_false, List.mem_flatten, List.mem_map] at hl
    rcases hl with rfl | rfl | rfl | ⟨_, ⟨r, hr, rfl⟩, hl⟩ | rfl
    · exact hr
    · exact holds_noLF (by decide) (by decide) (by decide) hhead
    · exact hr
    · exact (hrow r hr).2 l hl
    · exact hr

end Arinc
