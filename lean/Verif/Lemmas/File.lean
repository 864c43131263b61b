import Verif.Lemmas.Parse
import Verif.Spec.File
/-! Helper lemmas: lines of a text, `read_file`, `read_folder`, `search`. -/
namespace Arinc
open Py Spec

/-! ### lines -/

theorem universalNewlines_append {l : Str} (h : NoEOL l) (s : Str) :
    universalNewlines (l ++ s) = l ++ universalNewlines s := by
  induction l with
  | nil => rfl
  | cons c l ih =>
    have hc := h c (by simp)
    have ih := ih (fun d hd => h d (by simp [hd]))
    rw [List.cons_append, List.cons_append, universalNewlines, ih]
    · intro s' h1; exact absurd h1 hc.2
    · intro h1; exact absurd h1 hc.2

theorem universalNewlines_lf (s : Str) : universalNewlines (10 :: s) = 10 :: universalNewlines s := by
  rw [universalNewlines]
  · intro s' h1; cases h1
  · intro h1; cases h1

theorem universalNewlines_cr {s : Str} (h : s.head? ≠ some 10) :
    universalNewlines (13 :: s) = 10 :: universalNewlines s := by
  rw [universalNewlines]
  intro s' h1
  subst h1
  exact h rfl

theorem splitKeepLF_line {l : Str} (h : NoEOL l) (s : Str) :
    splitKeepLF (l ++ 10 :: s) = (l ++ [10]) :: splitKeepLF s := by
  induction l with
  | nil => rw [List.nil_append, splitKeepLF]; rfl
  | cons c l ih =>
    have hc := h c (by simp)
    have ih := ih (fun d hd => h d (by simp [hd]))
    rw [List.cons_append, splitKeepLF, ih]
    · rfl
    · exact hc.1

theorem splitKeepLF_last {l : Str} (h : NoEOL l) (hne : l ≠ []) : splitKeepLF l = [l] := by
  induction l with
  | nil => exact absurd rfl hne
  | cons c l ih =>
    have hc := h c (by simp)
    rw [splitKeepLF]
    · cases l with
      | nil => rfl
      | cons d l => rw [ih (fun e he => h e (by simp [he])) (by simp)]
    · exact hc.1

theorem readlines_lf {l : Str} (h : NoEOL l) (s : Str) :
    readlines (l ++ 10 :: s) = (l ++ [10]) :: readlines s := by
  unfold readlines
  rw [universalNewlines_append h, universalNewlines_lf, splitKeepLF_line h]

theorem readlines_crlf {l : Str} (h : NoEOL l) (s : Str) :
    readlines (l ++ 13 :: 10 :: s) = (l ++ [10]) :: readlines s := by
  unfold readlines
  rw [universalNewlines_append h, universalNewlines, splitKeepLF_line h]

theorem readlines_cr {l : Str} (h : NoEOL l) {s : Str} (hs : s.head? ≠ some 10) :
    readlines (l ++ 13 :: s) = (l ++ [10]) :: readlines s := by
  unfold readlines
  rw [universalNewlines_append h, universalNewlines_cr hs, splitKeepLF_line h]

theorem readlines_last {l : Str} (h : NoEOL l) (hne : l ≠ []) : readlines l = [l] := by
  unfold readlines
  have := universalNewlines_append h []
  rw [List.append_nil] at this
  rw [this]
  have : universalNewlines [] = [] := rfl
  rw [this, List.append_nil, splitKeepLF_last h hne]

/-- each line, possibly with a final LF -/
def Chomped : List Str → List Str → Prop
  | [], [] => True
  | r :: rs, l :: ls => (r = l ∨ r = l ++ [10]) ∧ Chomped rs ls
  | _, _ => False

theorem lines_readlines {s : Str} {ls : List Str} (h : Lines s ls) : Chomped (readlines s) ls := by
  induction h with
  | nil => trivial
  | last h hne => rw [readlines_last h hne]; exact ⟨.inl rfl, trivial⟩
  | lf h _ ih => rw [readlines_lf h]; exact ⟨.inr rfl, ih⟩
  | crlf h _ ih => rw [readlines_crlf h]; exact ⟨.inr rfl, ih⟩
  | cr h _ hs ih => rw [readlines_cr h hs]; exact ⟨.inr rfl, ih⟩

theorem lines_noEOL {s : Str} {ls : List Str} (h : Lines s ls) : ∀ l ∈ ls, NoEOL l := by
  induction h with
  | nil => intro l hl; cases hl
  | last h hne => intro l hl; simp at hl; subst hl; exact h
  | lf h _ ih | crlf h _ ih | cr h _ _ ih =>
    intro l hl
    rcases List.mem_cons.1 hl with rfl | hl
    · exact h
    · exact ih l hl

theorem chomped_unique {rs ls ls' : List Str} (h : Chomped rs ls) (h' : Chomped rs ls')
    (hl : ∀ l ∈ ls, NoEOL l) (hl' : ∀ l ∈ ls', NoEOL l) : ls = ls' := by
  induction rs generalizing ls ls' with
  | nil =>
    cases ls with
    | nil => cases ls' with
      | nil => rfl
      | cons => cases h'
    | cons => cases h
  | cons r rs ih =>
    cases ls with
    | nil => cases h
    | cons l ls =>
      cases ls' with
      | nil => cases h'
      | cons l' ls' =>
        have e := ih h.2 h'.2 (fun x hx => hl x (by simp [hx])) (fun x hx => hl' x (by simp [hx]))
        have n1 := hl l (by simp)
        have n2 := hl' l' (by simp)
        have el : l = l' := by
          rcases h.1 with h1 | h1 <;> rcases h'.1 with h2 | h2
          · rw [← h1, h2]
          · exfalso; rw [← h1, h2] at n1; exact (n1 10 (by simp)).1 rfl
          · exfalso; rw [← h2, h1] at n2; exact (n2 10 (by simp)).1 rfl
          · rw [h1] at h2; exact List.append_cancel_right h2
        rw [e, el]

theorem lines_unique {s : Str} {ls ls' : List Str} (h : Lines s ls) (h' : Lines s ls') : ls = ls' :=
  chomped_unique (lines_readlines h) (lines_readlines h') (lines_noEOL h) (lines_noEOL h')

theorem noEOL_cons {c : Nat} {l : Str} (hc : c ≠ 10 ∧ c ≠ 13) (h : NoEOL l) : NoEOL (c :: l) := by
  intro d hd
  rcases List.mem_cons.1 hd with rfl | hd
  · exact hc
  · exact h d hd

theorem lines_cons {c : Nat} (hc : c ≠ 10 ∧ c ≠ 13) {s : Str} {ls : List Str} (h : Lines s ls) :
    ∃ ls', Lines (c :: s) ls' := by
  cases h with
  | nil => exact ⟨_, .last (l := [c]) (noEOL_cons hc (by intro d hd; cases hd)) (by simp)⟩
  | last h hne => exact ⟨_, .last (noEOL_cons hc h) (by simp)⟩
  | lf h t => exact ⟨_, .lf (noEOL_cons hc h) t⟩
  | crlf h t => exact ⟨_, .crlf (noEOL_cons hc h) t⟩
  | cr h t hs => exact ⟨_, .cr (noEOL_cons hc h) t hs⟩

theorem noEOL_nil : NoEOL [] := by intro c hc; cases hc

theorem lines_exist (s : Str) : ∃ ls, Lines s ls := by
  suffices H : ∀ n, ∀ s : Str, s.length ≤ n → ∃ ls, Lines s ls from H s.length s (Nat.le_refl _)
  intro n
  induction n with
  | zero =>
    intro s hs
    have : s = [] := List.length_eq_zero_iff.1 (by omega)
    subst this
    exact ⟨_, .nil⟩
  | succ n ih =>
    intro s hs
    cases s with
    | nil => exact ⟨_, .nil⟩
    | cons c s =>
      simp only [List.length_cons] at hs
      obtain ⟨ls, hl⟩ := ih s (by omega)
      by_cases h1 : c = 10
      · subst h1; exact ⟨_, .lf noEOL_nil hl⟩
      · by_cases h2 : c = 13
        · subst h2
          by_cases h3 : s.head? = some 10
          · cases s with
            | nil => cases h3
            | cons d s =>
              simp only [List.head?_cons, Option.some.injEq] at h3
              subst h3
              simp only [List.length_cons] at hs
              obtain ⟨ls, hl⟩ := ih s (by omega)
              exact ⟨_, .crlf noEOL_nil hl⟩
          · exact ⟨_, .cr noEOL_nil hl h3⟩
        · exact lines_cons ⟨h1, h2⟩ hl

/-! texts made of terminated lines -/

theorem terminated_cons (eol l : Str) (ls : List Str) :
    terminated eol (l :: ls) = l ++ (eol ++ terminated eol ls) := by
  simp [terminated]

theorem head_noEOL {l : Str} (h : NoEOL l) : l.head? ≠ some 10 := by
  cases l with
  | nil => simp
  | cons c l => have := (h c (by simp)).1; simpa using this

theorem head_terminated {eol : Str} (he : eol = [13]) {ls : List Str} (h : ∀ l ∈ ls, NoEOL l) {last : Str}
    (hl : NoEOL last) : (terminated eol ls ++ last).head? ≠ some 10 := by
  cases ls with
  | nil => exact head_noEOL hl
  | cons l ls =>
    rw [terminated_cons]
    cases l with
    | nil => subst he; simp
    | cons c l =>
      have := (h (c :: l) (by simp) c (by simp)).1
      simpa using this

/-- the lines of such a text -/
theorem lines_terminated {eol : Str} (he : eol = [10] ∨ eol = [13, 10] ∨ eol = [13]) {ls : List Str}
    (h : ∀ l ∈ ls, NoEOL l) {last : Str} (hl : NoEOL last) :
    Lines (terminated eol ls ++ last) (ls ++ if last = [] then [] else [last]) := by
  induction ls with
  | nil =>
    by_cases h0 : last = []
    · subst h0; exact .nil
    · rw [if_neg h0]; exact .last hl h0
  | cons l ls ih =>
    have ih := ih (fun x hx => h x (by simp [hx]))
    rw [terminated_cons, List.append_assoc, List.append_assoc, List.cons_append]
    rcases he with rfl | rfl | rfl
    · exact .lf (h l (by simp)) ih
    · exact .crlf (h l (by simp)) ih
    · exact .cr (h l (by simp)) ih (head_terminated rfl (fun x hx => h x (by simp [hx])) hl)

theorem lines_append {a s : Str} {la ls : List Str} (ha : Lines a la) (hs : Lines s ls)
    (hc : Complete a s) : Lines (a ++ s) (la ++ ls) := by
  induction ha with
  | nil => exact hs
  | last h hne =>
    exfalso
    cases hc with
    | nil => exact hne rfl
    | lf a => exact (h 10 (by simp)).1 rfl
    | cr a _ _ => exact (h 13 (by simp)).2 rfl
  | @lf l t lt h ht ih =>
    have ht' : Complete t s := by
      cases t with
      | nil => exact .nil s
      | cons c t =>
        generalize hx : l ++ 10 :: c :: t = x at hc
        cases hc with
        | nil => simp at hx
        | lf a =>
          have : (c :: t).getLast? = some 10 := by
            have := congrArg List.getLast? hx
            simpa using this
          obtain ⟨b, hb⟩ := List.getLast?_eq_some_iff.1 this
          rw [hb]; exact .lf b s
        | cr a _ hs' =>
          have : (c :: t).getLast? = some 13 := by
            have := congrArg List.getLast? hx
            simpa using this
          obtain ⟨b, hb⟩ := List.getLast?_eq_some_iff.1 this
          rw [hb]; exact .cr b s hs'
    have := Lines.lf h (ih ht')
    simpa using this
  | @crlf l t lt h ht ih =>
    have ht' : Complete t s := by
      cases t with
      | nil => exact .nil s
      | cons c t =>
        generalize hx : l ++ 13 :: 10 :: c :: t = x at hc
        cases hc with
        | nil => simp at hx
        | lf a =>
          have : (c :: t).getLast? = some 10 := by
            have := congrArg List.getLast? hx
            simpa using this
          obtain ⟨b, hb⟩ := List.getLast?_eq_some_iff.1 this
          rw [hb]; exact .lf b s
        | cr a _ hs' =>
          have : (c :: t).getLast? = some 13 := by
            have := congrArg List.getLast? hx
            simpa using this
          obtain ⟨b, hb⟩ := List.getLast?_eq_some_iff.1 this
          rw [hb]; exact .cr b s hs'
    have := Lines.crlf h (ih ht')
    simpa using this
  | @cr l t lt h ht hh ih =>
    have ht' : Complete t s ∧ (t ++ s).head? ≠ some 10 := by
      cases t with
      | nil =>
        refine ⟨.nil s, ?_⟩
        generalize hx : l ++ 13 :: [] = x at hc
        cases hc with
        | nil => simp at hx
        | lf a =>
          have := congrArg List.getLast? hx
          simp at this
        | cr a _ hs' => exact hs'
      | cons c t =>
        refine ⟨?_, by simpa using hh⟩
        generalize hx : l ++ 13 :: c :: t = x at hc
        cases hc with
        | nil => simp at hx
        | lf a =>
          have : (c :: t).getLast? = some 10 := by
            have := congrArg List.getLast? hx
            simpa using this
          obtain ⟨b, hb⟩ := List.getLast?_eq_some_iff.1 this
          rw [hb]; exact .lf b s
        | cr a _ hs' =>
          have : (c :: t).getLast? = some 13 := by
            have := congrArg List.getLast? hx
            simpa using this
          obtain ⟨b, hb⟩ := List.getLast?_eq_some_iff.1 this
          rw [hb]; exact .cr b s hs'
    have := Lines.cr h (ih ht'.1) ht'.2
    simpa using this

/-- a further line terminator ends the last line, adds an empty line, or completes a CR -/
theorem lines_snoc_eol {s eol : Str} {ls : List Str} (h : Lines s ls)
    (he : eol = [10] ∨ eol = [13, 10] ∨ eol = [13]) :
    ∃ ls', (ls' = ls ∨ ls' = ls ++ [[]]) ∧ Lines (s ++ eol) ls' := by
  have one : ∀ l : Str, NoEOL l → Lines (l ++ eol) [l] := by
    intro l hl
    rcases he with rfl | rfl | rfl
    · exact .lf hl .nil
    · exact .crlf hl .nil
    · exact .cr hl .nil (by simp)
  induction h with
  | nil => exact ⟨[[]], .inr rfl, one [] noEOL_nil⟩
  | last h hne => exact ⟨_, .inl rfl, one _ h⟩
  | @lf l t lt h ht ih =>
    obtain ⟨ls', hor, h'⟩ := ih
    refine ⟨l :: ls', ?_, by simpa using Lines.lf h h'⟩
    rcases hor with rfl | rfl <;> simp
  | @crlf l t lt h ht ih =>
    obtain ⟨ls', hor, h'⟩ := ih
    refine ⟨l :: ls', ?_, by simpa using Lines.crlf h h'⟩
    rcases hor with rfl | rfl <;> simp
  | @cr l t lt h ht hh ih =>
    by_cases h0 : (t ++ eol).head? = some 10
    · cases t with
      | cons c t => exact absurd h0 (by simpa using hh)
      | nil =>
        have hlt : lt = [] := lines_unique ht .nil
        subst hlt
        rcases he with rfl | rfl | rfl
        · exact ⟨[l], .inl rfl, by simpa using Lines.crlf h .nil⟩
        · simp at h0
        · simp at h0
    · obtain ⟨ls', hor, h'⟩ := ih
      refine ⟨l :: ls', ?_, by simpa using Lines.cr h h' h0⟩
      rcases hor with rfl | rfl <;> simp

/-! ### effects -/
section
variable [PyUnicode]

theorem read_lf (r : Record) (l : Str) : r.read (l ++ [10]) = r.read l :=
  read_append_space l [10] (by intro c hc; simp at hc; subst hc; rfl) r

theorem parse_lf (l : Str) (output : Bool) (legs : Legs) :
    parse (l ++ [10]) output legs = parse l output legs := by
  unfold parse
  rw [read_lf]

theorem parseLines_chomped {rs ls : List Str} (h : Chomped rs ls) (output : Bool) (legs : Legs) :
    parseLines output rs legs = parseLines output ls legs := by
  induction rs generalizing ls legs with
  | nil => cases ls with
    | nil => rfl
    | cons => cases h
  | cons r rs ih =>
    cases ls with
    | nil => cases h
    | cons l ls =>
      have hp : parse r output legs = parse l output legs := by
        rcases h.1 with h1 | h1
        · rw [h1]
        · rw [h1, parse_lf]
      simp only [parseLines, hp, ih h.2]

theorem readFile_lines {s : Str} {ls : List Str} (h : Lines s ls) (output : Bool) (legs : Legs) :
    readFile (.text s) output legs = parseLines output ls legs :=
  parseLines_chomped (lines_readlines h) output legs

theorem searchLines_chomped {rs ls : List Str} (h : Chomped rs ls) (filters : Filters) (n : Nat) :
    searchLines filters rs n = searchLines filters ls n := by
  induction rs generalizing ls n with
  | nil => cases ls with
    | nil => rfl
    | cons => cases h
  | cons r rs ih =>
    cases ls with
    | nil => cases h
    | cons l ls =>
      have hp : Record.new.read r = Record.new.read l := by
        rcases h.1 with h1 | h1
        · rw [h1]
        · rw [h1, read_lf]
      simp only [searchLines, hp, ih h.2]

theorem search_lines {s : Str} {ls : List Str} (h : Lines s ls) (filters : Filters) :
    search (.text s) filters = searchLines filters ls 0 :=
  searchLines_chomped (lines_readlines h) filters 0

/-! parseLines -/

theorem parseLines_ok {ls : List Str} {output : Bool}
    (h : ∀ l ∈ ls, ∀ e, (parse l output legTypeDesc).res ≠ .error e) {legs : Legs} (hl : Grown legs) :
    (parseLines output ls legs).res = .ok () ∧
    (parseLines output ls legs).out = ls.flatMap (fun l => (parse l output legTypeDesc).out) := by
  induction ls generalizing legs with
  | nil => exact ⟨rfl, rfl⟩
  | cons l ls ih =>
    obtain ⟨h1, h2, h3⟩ := parse_legs l output hl
    simp only [parseLines]
    rw [h1, h2]
    cases hr : (parse l output legTypeDesc).res with
    | error e => exact absurd hr (h l (by simp) e)
    | ok b =>
      obtain ⟨i1, i2⟩ := ih (fun x hx => h x (by simp [hx])) h3
      simp only [List.flatMap_cons]
      exact ⟨i1, by rw [i2]⟩

theorem parseLines_append (output : Bool) (a b : List Str) (legs : Legs) :
    parseLines output (a ++ b) legs =
      match (parseLines output a legs).res with
      | .error _ => parseLines output a legs
      | .ok _ =>
        ⟨(parseLines output b (parseLines output a legs).legs).res,
         (parseLines output a legs).out ++ (parseLines output b (parseLines output a legs).legs).out,
         (parseLines output b (parseLines output a legs).legs).legs⟩ := by
  induction a generalizing legs with
  | nil => simp [parseLines]
  | cons l a ih =>
    simp only [List.cons_append, parseLines]
    cases hr : (parse l output legs).res with
    | error e => rfl
    | ok x =>
      simp only
      rw [ih]
      cases hr2 : (parseLines output a (parse l output legs).legs).res with
      | error e => simp [hr2]
      | ok y => simp

theorem parseLines_stop {pre post : List Str} {l : Str} {output : Bool}
    (h : ∀ l ∈ pre, ∀ e, (parse l output legTypeDesc).res ≠ .error e) {e : Exc}
    (he : (parse l output legTypeDesc).res = .error e) {legs : Legs} (hl : Grown legs) :
    (parseLines output (pre ++ l :: post) legs).res = .error e ∧
    (parseLines output (pre ++ l :: post) legs).out =
      (pre ++ [l]).flatMap (fun l => (parse l output legTypeDesc).out) := by
  obtain ⟨h1, h2⟩ := parseLines_ok h hl
  have h3 := (parseLines_legs output pre hl).2.2
  rw [parseLines_append]
  simp only [h1]
  obtain ⟨g1, g2, _⟩ := parse_legs l output h3
  simp only [parseLines]
  rw [g1, he]
  simp only
  rw [g2, h2]
  simp

theorem parse_reject {l : Str} (h : ¬ (WellShaped l ∧ ∃ k, Resolves l k)) :
    ∃ o, Record.new.read l = ⟨.ok false, o, []⟩ := by
  rcases read_cases Record.new l with ⟨_, h'⟩ | ⟨_, _, h'⟩ | ⟨hrec, k, d, hres, _⟩
  · exact ⟨_, h'⟩
  · exact ⟨_, h'⟩
  · exact absurd ⟨⟨_, padded_strip l, hrec⟩, k, resolve_iff.1 hres⟩ h

theorem parseLines_junk {j : List Str} (hj : ∀ l ∈ j, ¬ (WellShaped l ∧ ∃ k, Resolves l k))
    (output : Bool) (legs : Legs) : parseLines output j legs = ⟨.ok (), [], legs⟩ := by
  induction j with
  | nil => rfl
  | cons l j ih =>
    obtain ⟨o, ho⟩ := parse_reject (hj l (by simp))
    have hp : parse l output legs = ⟨.ok false, [], legs⟩ := by unfold parse; rw [ho]
    simp only [parseLines, hp, ih (fun x hx => hj x (by simp [hx])), List.append_nil]

theorem parseLines_insert {j : List Str} (hj : ∀ l ∈ j, ¬ (WellShaped l ∧ ∃ k, Resolves l k))
    (output : Bool) (a b : List Str) (legs : Legs) :
    parseLines output (a ++ j ++ b) legs = parseLines output (a ++ b) legs := by
  rw [List.append_assoc, parseLines_append, parseLines_append output a b]
  cases (parseLines output a legs).res with
  | error e => rfl
  | ok x =>
    simp only
    rw [parseLines_append, parseLines_junk hj]
    simp

/-! search -/

omit [PyUnicode] in
theorem keep_iff {filters : Filters} {t : Str} : filters.keep t = true ↔ Matches filters t := by
  cases filters with
  | str s => exact contains_iff
  | list ss =>
    simp only [Filters.keep, Matches, List.all_eq_true]
    exact ⟨fun h s hs => contains_iff.1 (h s hs), fun h s hs => contains_iff.2 (h s hs)⟩
  | other => simp [Filters.keep, Matches]

theorem raw_of_accept {l : Str} (h : (Record.new.read l).res = .ok true) :
    (Record.new.read l).obj.raw = strip l := by
  obtain ⟨k, d, lay, ha⟩ := accepted h
  rw [ha.read]; rfl

open Classical in
theorem searchLines_ok {filters : Filters} {ls : List Str}
    (h : ∀ l ∈ ls, ∀ e, (Record.new.read l).res ≠ .error e) (n : Nat) :
    searchLines filters ls n = (.ok (), ls.flatMap (fun l => (Record.new.read l).out ++
        (if Hit filters l then [.line (strip l)] else [])) ++
      [.summary (n + (hits filters ls).length) filters (n + (hits filters ls).length != 0)]) := by
  induction ls generalizing n with
  | nil => rfl
  | cons l ls ih =>
    have ih := ih (fun x hx => h x (by simp [hx]))
    simp only [searchLines]
    cases hr : (Record.new.read l).res with
    | error e => exact absurd hr (h l (by simp) e)
    | ok b =>
      cases b with
      | false =>
        have hh : ¬ Hit filters l := by rintro ⟨h1, _⟩; rw [hr] at h1; cases h1
        have hf : hits filters (l :: ls) = hits filters ls := by
          unfold hits; rw [List.filter_cons_of_neg (by simpa using hh)]
        simp only [ih, hf, List.flatMap_cons, if_neg hh, List.append_nil, List.append_assoc]
      | true =>
        simp only
        rw [raw_of_accept hr]
        by_cases hk : filters.keep (strip l) = true
        · have hh : Hit filters l := ⟨hr, keep_iff.1 hk⟩
          have hf : hits filters (l :: ls) = l :: hits filters ls := by
            unfold hits; rw [List.filter_cons_of_pos (by simpa using hh)]
          rw [if_pos hk]
          simp only [ih, hf, List.flatMap_cons, if_pos hh, List.append_assoc, List.length_cons]
          have : n + 1 + (hits filters ls).length = n + ((hits filters ls).length + 1) := by omega
          rw [this]
        · have hh : ¬ Hit filters l := fun hh => hk (keep_iff.2 hh.2)
          have hf : hits filters (l :: ls) = hits filters ls := by
            unfold hits; rw [List.filter_cons_of_neg (by simpa using hh)]
          rw [if_neg hk]
          simp only [ih, hf, List.flatMap_cons, if_neg hh, List.append_nil, List.append_assoc]

theorem read_error_out {r : Record} {l : Str} {e : Exc} (h : (r.read l).res = .error e) :
    (r.read l).out = [] := by
  rcases read_cases r l with ⟨_, h'⟩ | ⟨_, _, h'⟩ | ⟨hrec, k, d, hres, hd, hf, h'⟩
  · rw [h']
  · rw [h']
  · rw [h'] at h ⊢
    unfold Record.readAs at h ⊢
    simp only at h ⊢
    split
    · next hc => rw [if_pos hc] at h; cases h
    · unfold Record.finish
      split <;> rfl

open Classical in
theorem searchLines_stop {filters : Filters} {pre post : List Str} {l : Str}
    (h : ∀ l ∈ pre, ∀ e, (Record.new.read l).res ≠ .error e) {e : Exc}
    (he : (Record.new.read l).res = .error e) (n : Nat) :
    searchLines filters (pre ++ l :: post) n = (.error e,
      pre.flatMap (fun l => (Record.new.read l).out ++
        (if Hit filters l then [.line (strip l)] else []))) := by
  induction pre generalizing n with
  | nil => simp only [List.nil_append, searchLines, he, read_error_out he, List.flatMap_nil]
  | cons a pre ih =>
    have ih := ih (fun x hx => h x (by simp [hx]))
    simp only [List.cons_append, searchLines]
    cases hr : (Record.new.read a).res with
    | error e => exact absurd hr (h a (by simp) e)
    | ok b =>
      cases b with
      | false =>
        have hh : ¬ Hit filters a := by rintro ⟨h1, _⟩; rw [hr] at h1; cases h1
        simp only [ih, List.flatMap_cons, if_neg hh, List.append_nil]
      | true =>
        simp only
        rw [raw_of_accept hr]
        by_cases hk : filters.keep (strip a) = true
        · have hh : Hit filters a := ⟨hr, keep_iff.1 hk⟩
          rw [if_pos hk]
          simp only [ih, List.flatMap_cons, if_pos hh, List.append_assoc]
        · have hh : ¬ Hit filters a := fun hh => hk (keep_iff.2 hh.2)
          rw [if_neg hk]
          simp only [ih, List.flatMap_cons, if_neg hh, List.append_nil]

theorem searchLines_insert {j : List Str} (hj : ∀ l ∈ j, ¬ (WellShaped l ∧ ∃ k, Resolves l k))
    (filters : Filters) (a b : List Str) (n : Nat) :
    searchLines filters (a ++ j ++ b) n = searchLines filters (a ++ b) n := by
  rw [List.append_assoc]
  induction a generalizing n with
  | nil =>
    simp only [List.nil_append]
    induction j with
    | nil => rfl
    | cons l j ih =>
      obtain ⟨o, ho⟩ := parse_reject (hj l (by simp))
      simp only [List.cons_append, searchLines, ho, ih (fun x hx => hj x (by simp [hx])),
        List.nil_append]
  | cons l a ih => simp only [List.cons_append, searchLines, ih]

/-- filters that keep the same records -/
theorem searchLines_congr {f g : Filters} (h : ∀ t, f.keep t = g.keep t) (ls : List Str) (n m : Nat) :
    (searchLines f ls n).1 = (searchLines g ls m).1 ∧
    body (searchLines f ls n).2 = body (searchLines g ls m).2 := by
  induction ls generalizing n m with
  | nil => exact ⟨rfl, rfl⟩
  | cons l ls ih =>
    simp only [searchLines, h]
    cases (Record.new.read l).res with
    | error e => exact ⟨rfl, rfl⟩
    | ok b =>
      cases b with
      | false =>
        obtain ⟨i1, i2⟩ := ih n m
        unfold body at i2 ⊢
        simp only [List.filter_append, i1, i2, and_self]
      | true =>
        simp only
        split
        · obtain ⟨i1, i2⟩ := ih (n + 1) (m + 1)
          unfold body at i2 ⊢
          simp only [List.filter_append, i1, i2, and_self]
        · obtain ⟨i1, i2⟩ := ih n m
          unfold body at i2 ⊢
          simp only [List.filter_append, i1, i2, and_self]

/-- filters that keep fewer records -/
theorem searchLines_mono {f g : Filters} (h : ∀ t, g.keep t = true → f.keep t = true) (ls : List Str)
    (n m : Nat) :
    (searchLines g ls n).1 = (searchLines f ls m).1 ∧
    (body (searchLines g ls n).2).Sublist (body (searchLines f ls m).2) := by
  induction ls generalizing n m with
  | nil => exact ⟨rfl, by simp [searchLines, body, notSummary]⟩
  | cons l ls ih =>
    simp only [searchLines]
    cases (Record.new.read l).res with
    | error e => exact ⟨rfl, List.Sublist.refl _⟩
    | ok b =>
      cases b with
      | false =>
        obtain ⟨i1, i2⟩ := ih n m
        unfold body at i2 ⊢
        simp only [List.filter_append]
        exact ⟨i1, List.Sublist.append (List.Sublist.refl _) i2⟩
      | true =>
        simp only
        by_cases hg : g.keep (Record.new.read l).obj.raw = true
        · rw [if_pos hg, if_pos (h _ hg)]
          obtain ⟨i1, i2⟩ := ih (n + 1) (m + 1)
          unfold body at i2 ⊢
          simp only [List.filter_append]
          exact ⟨i1, List.Sublist.append (List.Sublist.refl _) i2⟩
        · rw [if_neg hg]
          split
          · obtain ⟨i1, i2⟩ := ih n (m + 1)
            unfold body at i2 ⊢
            simp only [List.filter_append]
            refine ⟨i1, List.Sublist.append ?_ i2⟩
            exact List.sublist_append_left _ _
          · obtain ⟨i1, i2⟩ := ih n m
            unfold body at i2 ⊢
            simp only [List.filter_append]
            exact ⟨i1, List.Sublist.append (List.Sublist.refl _) i2⟩

theorem first_error {ls : List Str} (h : ¬ ∀ l ∈ ls, ∀ e, (Record.new.read l).res ≠ .error e) :
    ∃ pre l post e, ls = pre ++ l :: post ∧ (∀ x ∈ pre, ∀ e, (Record.new.read x).res ≠ .error e) ∧
      (Record.new.read l).res = .error e := by
  induction ls with
  | nil => exact absurd (fun l hl => by cases hl) h
  | cons l ls ih =>
    cases hr : (Record.new.read l).res with
    | error e => exact ⟨[], l, ls, e, rfl, by simp, hr⟩
    | ok b =>
      have : ¬ ∀ l ∈ ls, ∀ e, (Record.new.read l).res ≠ .error e := by
        intro g; apply h; intro x hx e
        rcases List.mem_cons.1 hx with rfl | hx
        · rw [hr]; simp
        · exact g x hx e
      obtain ⟨pre, x, post, e, rfl, hp, hx⟩ := ih this
      refine ⟨l :: pre, x, post, e, rfl, ?_, hx⟩
      intro y hy e
      rcases List.mem_cons.1 hy with rfl | hy
      · rw [hr]; simp
      · exact hp y hy e

/-! read_folder -/

theorem readFiles_ok {fs : List FileObj}
    (h : ∀ f ∈ fs, ∀ e, (readFile f true legTypeDesc).res ≠ .error e) {legs : Legs} (hl : Grown legs) :
    (readFiles fs legs).res = .ok () ∧
    (readFiles fs legs).out = fs.flatMap (fun f => (readFile f true legTypeDesc).out) := by
  induction fs generalizing legs with
  | nil => exact ⟨rfl, rfl⟩
  | cons l ls ih =>
    obtain ⟨h1, h2, h3⟩ := readFile_legs l true hl
    simp only [readFiles]
    rw [h1, h2]
    cases hr : (readFile l true legTypeDesc).res with
    | error e => exact absurd hr (h l (by simp) e)
    | ok b =>
      obtain ⟨i1, i2⟩ := ih (fun x hx => h x (by simp [hx])) h3
      simp only [List.flatMap_cons]
      exact ⟨i1, by rw [i2]⟩

theorem readFiles_stop {pre post : List FileObj} {f : FileObj}
    (h : ∀ f ∈ pre, ∀ e, (readFile f true legTypeDesc).res ≠ .error e) {e : Exc}
    (he : (readFile f true legTypeDesc).res = .error e) {legs : Legs} (hl : Grown legs) :
    (readFiles (pre ++ f :: post) legs).res = .error e ∧
    (readFiles (pre ++ f :: post) legs).out =
      (pre ++ [f]).flatMap (fun f => (readFile f true legTypeDesc).out) := by
  induction pre generalizing legs with
  | nil =>
    obtain ⟨h1, h2, h3⟩ := readFile_legs f true hl
    simp only [List.nil_append, readFiles]
    rw [h1, h2, he]
    simp
  | cons l ls ih =>
    obtain ⟨h1, h2, h3⟩ := readFile_legs l true hl
    simp only [List.cons_append, readFiles]
    rw [h1, h2]
    cases hr : (readFile l true legTypeDesc).res with
    | error e => exact absurd hr (h l (by simp) e)
    | ok b =>
      obtain ⟨i1, i2⟩ := ih (fun x hx => h x (by simp [hx])) h3
      simp only [List.flatMap_cons]
      exact ⟨i1, by rw [i2]⟩

end
end Arinc
