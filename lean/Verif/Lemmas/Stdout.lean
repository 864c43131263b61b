import Verif.Model.Stdout
import Verif.Props.Consistency
import Verif.Props.Table
/-! Helper lemmas: standard output as text. -/
namespace Arinc
open Py Spec Spec.Std

/-! ### `repr` -/

theorem reprChar_chars {p : ℕ → Bool} {q c x : ℕ} (hq : 32 ≤ q ∧ q ≤ 126) (h : x ∈ reprChar p q c) :
    (32 ≤ x ∧ x ≤ 126) ∨ (x = c ∧ 127 < c) := by
  have hx : ∀ n, 32 ≤ hexDigit (n % 16) ∧ hexDigit (n % 16) ≤ 126 :=
    fun n => hexDigit_printable (Nat.mod_lt _ (by decide))
  unfold reprChar at h
  split at h
  · simp at h; omega
  split at h
  · simp at h; omega
  split at h
  · simp at h; omega
  split at h
  · simp at h; omega
  split at h
  · left
    simp only [xEscape, List.mem_cons, List.not_mem_nil, or_false] at h
    rcases h with rfl | rfl | rfl | rfl
    · decide
    · decide
    · exact hx _
    · exact hx _
  split at h
  · simp at h; omega
  split at h
  · simp at h; omega
  left
  split at h
  · simp only [xEscape, List.mem_cons, List.not_mem_nil, or_false] at h
    rcases h with rfl | rfl | rfl | rfl
    · decide
    · decide
    · exact hx _
    · exact hx _
  split at h
  · simp only [uEscape, List.mem_cons, List.not_mem_nil, or_false] at h
    rcases h with rfl | rfl | rfl | rfl | rfl | rfl
    · decide
    · decide
    · exact hx _
    · exact hx _
    · exact hx _
    · exact hx _
  · simp only [bigEscape, List.mem_cons, List.not_mem_nil, or_false] at h
    rcases h with rfl | rfl | rfl | rfl | rfl | rfl | rfl | rfl | rfl | rfl
    · decide
    · decide
    all_goals exact hx _

theorem reprQuote_printable (s : Str) : 32 ≤ reprQuote s ∧ reprQuote s ≤ 126 := by unfold reprQuote; split <;> decide

theorem reprStr_chars {p : ℕ → Bool} {s : Str} {x : ℕ} (h : x ∈ reprStr p s) :
    (32 ≤ x ∧ x ≤ 126) ∨ (x ∈ s ∧ 127 < x) := by
  have hq := reprQuote_printable s
  simp only [reprStr, List.mem_cons, List.mem_append, List.mem_flatMap, List.not_mem_nil, or_false] at h
  rcases h with rfl | ⟨c, hc, h⟩ | rfl
  · exact .inl hq
  · rcases reprChar_chars hq h with h | ⟨rfl, h⟩
    · exact .inl h
    · exact .inr ⟨hc, h⟩
  · exact .inl hq

theorem reprElems_chars {p : ℕ → Bool} {ss : List Str} {x : ℕ} (h : x ∈ reprElems p ss) :
    (32 ≤ x ∧ x ≤ 126) ∨ ((∃ s ∈ ss, x ∈ s) ∧ 127 < x) := by
  induction ss with
  | nil => cases h
  | cons s ss ih =>
    have one : x ∈ reprStr p s → (32 ≤ x ∧ x ≤ 126) ∨ ((∃ t ∈ s :: ss, x ∈ t) ∧ 127 < x) := by
      intro h
      rcases reprStr_chars h with h | ⟨h, h'⟩
      · exact .inl h
      · exact .inr ⟨⟨s, by simp, h⟩, h'⟩
    cases ss with
    | nil => exact one h
    | cons t ss =>
      simp only [reprElems, List.mem_append, List.mem_cons, List.not_mem_nil, or_false] at h
      rcases h with (h | rfl | rfl) | h
      · exact one h
      · exact .inl (by decide)
      · exact .inl (by decide)
      · rcases ih h with h | ⟨⟨u, hu, h⟩, h'⟩
        · exact .inl h
        · exact .inr ⟨⟨u, List.mem_cons_of_mem _ hu, h⟩, h'⟩

/-! ### notices: single lines that are no records -/

/-- a complaint over the characters of `P` -/
def Notice (P : ℕ → Prop) : Event → Prop
  | .line s => Over P s ∧ ∃ c t, s = c :: t ∧ c ∈ [85, 86, 82, 102]
  | .legTime v e => Over P v ∧ match e with
    | .notInt s => ∃ c ∈ v, s = [c]
    | .tooShort => True
  | _ => False

/-- the characters `P` include those of the messages -/
def HasPrintable (P : ℕ → Prop) : Prop := ∀ c, 32 ≤ c ∧ c ≤ 126 → P c

theorem over_print {P : ℕ → Prop} (hP : HasPrintable P) {s : Str} (hs : s.all (fun c => 32 ≤ c && c ≤ 126) = true) :
    Over P s := by
  intro c hc
  have := List.all_eq_true.1 hs c hc
  exact hP c (by simpa using this)

theorem notice_text {P : ℕ → Prop} (hP : HasPrintable P) {sc : Screen} {e : Event} (h : Notice P e) :
    ∃ t, e.text sc = some t ∧ Over P t ∧ ∃ c u, t = c :: u ∧ c ∈ [85, 86, 82, 102, 69] := by
  cases e with
  | line s =>
    obtain ⟨h1, c, t, rfl, h2⟩ := h
    exact ⟨_, rfl, h1, c, t, rfl, by simp at h2 ⊢; omega⟩
  | table rows => exact h.elim
  | summary n f g => exact h.elim
  | legTime v e =>
    obtain ⟨h1, h2⟩ := h
    refine ⟨_, rfl, ?_, 69, _, rfl, by simp⟩
    refine over_append (over_append (over_append (over_print hP (by decide)) h1) (over_print hP (by decide))) ?_
    cases e with
    | tooShort => exact over_print hP (s := py!"string index out of range") (by decide)
    | notInt s =>
      obtain ⟨c, hc, rfl⟩ := h2
      refine over_append (over_print hP (by decide)) fun x hx => ?_
      rcases reprStr_chars (List.mem_of_mem_take hx) with h | ⟨h, _⟩
      · exact hP x h
      · simp at h; subst h; exact h1 x hc

section
variable [PyUnicode]

theorem not_record {c : ℕ} {t : Str} (hs : isSpace c = false) (h : c ≠ 83 ∧ c ≠ 84) (r : Record) :
    r.read (c :: t) = ⟨.ok false, r, []⟩ := by
  refine C01_rejects_others r _ ?_
  rintro ⟨u, ⟨pre, post, e, hpre, _⟩, hu⟩
  cases pre with
  | cons x pre =>
    simp only [List.cons_append, List.cons.injEq] at e
    have := hpre x (by simp)
    rw [← e.1, hs] at this; cases this
  | nil =>
    have hh := hu.first
    cases u with
    | nil => rcases hh with hh | hh <;> cases hh
    | cons x u =>
      simp only [List.nil_append, List.cons_append, List.cons.injEq] at e
      rw [← e.1] at hh
      rcases hh with hh | hh <;> simp at hh <;> omega

omit [PyUnicode] in
theorem names_print : registry.all (fun p => (p.2.name.getD []).all (fun c => 32 ≤ c && c ≤ 126)) = true := by
  decide +kernel

theorem read_notice {P : ℕ → Prop} (hP : HasPrintable P) {r : Record} {line : Str} (hl : Over P line) :
    ∀ e ∈ (r.read line).out, Notice P e := by
  rcases read_cases r line with ⟨_, h'⟩ | ⟨_, _, h'⟩ | ⟨hrec, k, d, hres, hd, hf, h'⟩
  · rw [h']; exact fun e he => by cases he
  · rw [h']; exact fun e he => by cases he
  · rw [h']
    unfold Record.readAs
    simp only
    split
    · next hc =>
      intro e he
      have hn := over_print hP (List.all_eq_true.1 names_print _ (lookup_mem hd))
      have hcc : Over P (r.enter line k d).continuation := by
        obtain ⟨i, hi⟩ := Option.isSome_iff_exists.1 hc.1
        simp only [Record.enter, hi]
        intro c hc
        simp only [col, Option.mem_toList] at hc
        exact over_strip hl c (List.mem_of_getElem? hc)
      simp only [contDiag, List.mem_cons, List.not_mem_nil, or_false] at he
      rcases he with rfl | rfl | rfl
      · exact ⟨over_append (over_append (over_append (over_append (over_print hP (by decide)) hn)
          (over_print hP (by decide))) hcc) (over_print hP (by decide)), 85, _, rfl, by simp⟩
      · exact ⟨over_print hP (by decide), 86, _, rfl, by simp⟩
      · exact ⟨over_append (over_print hP (by decide)) (over_strip hl), 82, _, rfl, by simp⟩
    · rw [finish_out]; exact fun e he => by cases he

theorem runDec_notice {P : ℕ → Prop} (hP : HasPrintable P) {fn : DecFn} {v : Str} {rec : RecInfo} {legs : Legs}
    (hv : Over P v) (hi : Over P rec.ident) (hr : Over P rec.raw) : ∀ e ∈ (runDec fn v rec legs).out, Notice P e := by
  have nil : ∀ e ∈ ([] : List Event), Notice P e := fun e he => by cases he
  cases fn
  case f021 =>
    show ∀ e ∈ (field_021 v legs).out, Notice P e
    unfold field_021
    simp only
    repeat' split
    all_goals exact nil
  case ident n => simp only [runDec]; split <;> exact nil
  case f034 =>
    show ∀ e ∈ (field_034 v rec.ident rec.raw).2, Notice P e
    unfold field_034
    simp only
    split
    · split
      · intro e he
        simp only [List.mem_cons, List.not_mem_nil, or_false] at he
        rcases he with rfl | rfl
        · exact ⟨over_append (over_append (over_print hP (by decide)) (over_strip hv)) (over_print hP (by decide)), 85, _,
            rfl, by simp⟩
        · exact ⟨over_append (over_append (over_append (over_append (over_print hP (by decide)) hi)
            (over_print hP (by decide))) hr) (over_print hP (by decide)), 102, _, rfl, by simp⟩
      · exact nil
    · exact nil
  case f065 =>
    show ∀ e ∈ (field_065 v).2, Notice P e
    unfold field_065
    split
    · exact nil
    · split
      · exact nil
      · next e he =>
        intro e' he'
        simp only [List.mem_cons, List.not_mem_nil, or_false] at he'
        subst he'
        refine ⟨hv, ?_⟩
        have ix : ∀ {i : ℕ} {s : Str}, index v i = .ok s → ∃ c ∈ v, s = [c] := by
          intro i s hs
          unfold index at hs
          split at hs
          · next c hc => cases hs; exact ⟨c, List.mem_of_getElem? hc, rfl⟩
          · cases hs
        unfold legTime at he
        cases h0 : index v 0 with
        | error x => rw [h0] at he; cases he; trivial
        | ok v0 =>
          rw [h0] at he
          simp only at he
          cases h1 : pyInt v0 with
          | error x => rw [h1] at he; cases he; exact ix h0
          | ok m =>
            rw [h1] at he
            simp only at he
            cases h2 : index v 1 with
            | error x => rw [h2] at he; cases he; trivial
            | ok v1 =>
              rw [h2] at he
              simp only at he
              cases h3 : pyInt v1 with
              | error x => rw [h3] at he; cases he; exact ix h2
              | ok t => rw [h3] at he; cases he
  case f118 =>
    show ∀ e ∈ (field_118 v).2, Notice P e
    unfold field_118
    split
    · exact nil
    · split
      · intro e he
        simp only [List.mem_cons, List.not_mem_nil, or_false] at he
        subst he
        exact ⟨over_append (over_append (over_print hP (by decide)) hv) (over_print hP (by decide)), 85, _, rfl, by simp⟩
      · split
        · exact nil
        · split <;> exact nil
  all_goals exact nil

theorem decodeRows_notice {P : ℕ → Prop} (hP : HasPrintable P) {rec : RecInfo} {fs : List Field} {legs : Legs}
    (hv : ∀ f ∈ fs, Over P f.value) (hi : Over P rec.ident) (hr : Over P rec.raw) :
    ∀ e ∈ (decodeRows rec fs legs).out, Notice P e := by
  induction fs generalizing legs with
  | nil => intro e he; cases he
  | cons f fs ih =>
    simp only [decodeRows]
    have h1 := runDec_notice hP (fn := f.dec) (legs := legs) (hv f (by simp)) hi hr
    split
    · exact h1
    · intro e he
      rcases List.mem_append.1 he with he | he
      · exact h1 e he
      · exact ih (fun f hf => hv f (by simp [hf])) e he

end

/-! ### blocks of lines -/

/-- the lines of one `print`: a line, or a table with three rules, one of them at the end -/
inductive Block : List Str → Bool → Prop
  | single {l : Str} (h : l.head? ≠ some 43) : Block [l] false
  | table {a h b c : Str} {body : List Str} (ha : a.head? = some 43) (hh : h.head? ≠ some 43) (hb : b.head? = some 43)
      (hbody : ∀ l ∈ body, l.head? ≠ some 43) (hc : c.head? = some 43) : Block (a :: h :: b :: (body ++ [c])) true

theorem to_rule {body body' r r' : List Str} {c c' : Str} (h : ∀ l ∈ body, l.head? ≠ some 43)
    (h' : ∀ l ∈ body', l.head? ≠ some 43) (hc : c.head? = some 43) (hc' : c'.head? = some 43)
    (e : body ++ c :: r = body' ++ c' :: r') : body = body' ∧ c = c' ∧ r = r' := by
  induction body generalizing body' with
  | nil =>
    cases body' with
    | nil => simp at e; exact ⟨rfl, e⟩
    | cons x body' =>
      simp at e
      rw [e.1] at hc
      exact absurd hc (h' x (by simp))
  | cons x body ih =>
    cases body' with
    | nil =>
      simp at e
      rw [← e.1] at hc'
      exact absurd hc' (h x (by simp))
    | cons y body' =>
      simp at e
      obtain ⟨i1, i2⟩ := ih (fun l hl => h l (by simp [hl])) (fun l hl => h' l (by simp [hl])) e.2
      exact ⟨by rw [e.1, i1], i2⟩

theorem block_unique {p q r r' : List Str} {x y : Bool} (hp : Block p x) (hq : Block q y) (e : p ++ r = q ++ r') :
    p = q ∧ x = y ∧ r = r' := by
  cases hp with
  | @single l h =>
    cases hq with
    | @single l' h' => simp at e; simp [e]
    | table ha => simp at e; rw [e.1] at h; exact absurd ha h
  | @table a m b c body ha hh hb hbody hc =>
    cases hq with
    | @single l' h' => simp at e; rw [e.1] at ha; exact absurd ha h'
    | @table a' m' b' c' body' ha' hh' hb' hbody' hc' =>
      simp only [List.cons_append, List.append_assoc, List.cons.injEq, List.nil_append] at e
      obtain ⟨e1, e2, e3, e4⟩ := e
      obtain ⟨i1, i2, i3⟩ := to_rule hbody hbody' hc hc' e4
      exact ⟨by rw [e1, e2, e3, i1, i2], rfl, i3⟩

theorem block_ne {p : List Str} {x : Bool} {r : List Str} (h : Block p x) : ¬ ([] = p ++ r) := by
  cases h <;> simp

/-- `BlockOf t p b`: the text `t` consists of the lines of the block -/
def BlockOf (t : Str) (p : List Str) (b : Bool) : Prop := Joined p t ∧ Block p b

theorem joined_lines {p : List Str} {t : Str} (h : Joined p t) : t ++ [10] = p.flatMap (· ++ [10]) := by
  induction h with
  | one h => simp
  | more h hs ih => simp only [List.flatMap_cons, ← ih]; simp

theorem ended_inj {ls ls' : List Str} (h : ∀ l ∈ ls, 10 ∉ l) (h' : ∀ l ∈ ls', 10 ∉ l)
    (e : ls.flatMap (· ++ [10]) = ls'.flatMap (· ++ [10])) : ls = ls' := by
  induction ls generalizing ls' with
  | nil => cases ls' with
    | nil => rfl
    | cons l' ls' => simp at e
  | cons l ls ih =>
    cases ls' with
    | nil => simp at e
    | cons l' ls' =>
      simp only [List.flatMap_cons, List.append_assoc, List.cons_append, List.nil_append] at e
      obtain ⟨h1, h2⟩ := cut_at (h l (by simp)) (h' l' (by simp)) e
      rw [h1, ih (fun l hl => h l (by simp [hl])) (fun l hl => h' l (by simp [hl])) h2]

theorem blocks_same {ts ts' : List Str} {bs bs' : List (List Str × Bool)}
    (h : List.Forall₂ (fun t b => BlockOf t b.1 b.2) ts bs) (h' : List.Forall₂ (fun t b => BlockOf t b.1 b.2) ts' bs')
    (e : ts.flatMap (· ++ [10]) = ts'.flatMap (· ++ [10])) : ts = ts' ∧ bs = bs' := by
  have lines : ∀ {ts : List Str} {bs : List (List Str × Bool)}, List.Forall₂ (fun t b => BlockOf t b.1 b.2) ts bs →
      ts.flatMap (· ++ [10]) = (bs.flatMap (·.1)).flatMap (· ++ [10]) ∧ ∀ l ∈ bs.flatMap (·.1), 10 ∉ l := by
    intro ts bs h
    induction h with
    | nil => exact ⟨rfl, fun l hl => (by cases hl)⟩
    | cons hb hbs ih =>
      refine ⟨?_, fun l hl => ?_⟩
      · simp only [List.flatMap_cons, List.flatMap_append, ih.1, joined_lines hb.1]
      · simp only [List.flatMap_cons, List.mem_append] at hl
        rcases hl with hl | hl
        · exact (joined_mem hb.1 l hl).1
        · exact ih.2 l hl
  obtain ⟨l1, l2⟩ := lines h
  obtain ⟨l1', l2'⟩ := lines h'
  rw [l1, l1'] at e
  have e' := ended_inj l2 l2' e
  clear l1 l1' l2 l2' lines e
  induction h generalizing ts' bs' with
  | nil =>
    cases h' with
    | nil => exact ⟨rfl, rfl⟩
    | cons hb hbs => exact absurd e' (block_ne hb.2)
  | @cons t b ts bs hb hbs ih =>
    cases h' with
    | nil => exact absurd e'.symm (block_ne hb.2)
    | @cons t' b' ts' bs' hb' hbs' =>
      simp only [List.flatMap_cons] at e'
      obtain ⟨e1, e2, e3⟩ := block_unique hb.2 hb'.2 e'
      obtain ⟨i1, i2⟩ := ih hbs' e3
      have hj := hb.1
      rw [e1] at hj
      have : t = t' := by
        have := (joined_lines hj).trans (joined_lines hb'.1).symm
        simpa using this
      exact ⟨by rw [this, i1], by rw [i2]; congr 1; exact Prod.ext e1 e2⟩

theorem forall₂_right {α β : Type} {R : α → β → Prop} {xs : List α} {ys : List β} (h : List.Forall₂ R xs ys) :
    ∀ y ∈ ys, ∃ x ∈ xs, R x y := by
  induction h with
  | nil => intro y hy; cases hy
  | cons h1 _ ih =>
    intro y hy
    rcases List.mem_cons.1 hy with rfl | hy
    · exact ⟨_, by simp, h1⟩
    · obtain ⟨x, hx, h⟩ := ih y hy
      exact ⟨x, by simp [hx], h⟩

theorem drawn_block {a b c : ℕ} {rows : List Line3} {t : Str} (h : Drawn a b c rows t) : ∃ p, BlockOf t p true := by
  cases h with
  | @mk rule head _ body hr hh hb ht =>
    have h43 : rule.head? = some 43 := by rw [hr]; rfl
    have hold : ∀ {x y z l : Str}, Holds a b c x y z l → l.head? ≠ some 43 := by
      rintro x y z l ⟨_, _, _, _, _, _, e⟩
      rw [e]
      simp
    refine ⟨_, ht, .table h43 (hold hh) h43 (fun l hl => ?_) h43⟩
    obtain ⟨ls, hls, hl'⟩ := List.mem_flatten.1 hl
    clear ht hl
    induction hb with
    | nil => cases hls
    | cons hrow _ ih =>
      rcases List.mem_cons.1 hls with rfl | hls
      · cases hrow with
        | @mk d m ds ls' hd hm hs =>
          rcases List.mem_cons.1 hl' with rfl | hl
          · exact hold hm
          · obtain ⟨z, _, hz⟩ := forall₂_right hs l hl
            exact hold hz
      · exact ih hls

end Arinc
