import Verif.Lemmas.Stdout
import Verif.Props.Fates
/-!
# C107: standard output as text
-/
namespace Arinc
open Py Spec Spec.Std

/-! ## characters -/

theorem repr_plain {x : Dbl} {s : Str} (h : x.repr = some s) : ∀ c ∈ s, Plain c := by
  have digits : ∀ n, ∀ c ∈ natStr n, Plain c := fun n c hc => by
    have := (natStr_decimal n).1.2.1 c hc; unfold Plain; omega
  have zeros : ∀ j, ∀ c ∈ List.replicate j 48, Plain c := by
    intro j c hc; rw [List.mem_replicate] at hc; unfold Plain; omega
  have lay : ∀ n k, ∀ c ∈ layoutRepr n k, Plain c := by
    intro n k c hc
    have ht : ∀ {j : ℕ}, c ∈ (natStr n).take j → Plain c := fun h => digits n c (List.mem_of_mem_take h)
    have hd : ∀ {j : ℕ}, c ∈ (natStr n).drop j → Plain c := fun h => digits n c (List.mem_of_mem_drop h)
    unfold layoutRepr at hc
    simp only at hc
    split at hc
    · split at hc
      · simp only [List.mem_append] at hc
        rcases hc with (hc | hc) | hc
        · simp at hc; unfold Plain; omega
        · exact zeros _ c hc
        · exact digits n c hc
      · split at hc
        · simp only [List.mem_append] at hc
          rcases hc with (hc | hc) | hc
          · exact digits n c hc
          · exact zeros _ c hc
          · simp at hc; unfold Plain; omega
        · simp only [List.mem_append] at hc
          rcases hc with (hc | hc) | hc
          · exact ht hc
          · simp at hc; unfold Plain; omega
          · exact hd hc
    · simp only [List.mem_append] at hc
      rcases hc with (((hc | hc) | hc) | hc) | hc
      · exact ht hc
      · split at hc
        · cases hc
        · rcases List.mem_append.1 hc with hc | hc
          · simp at hc; unfold Plain; omega
          · exact hd hc
      · simp at hc; unfold Plain; omega
      · split at hc <;> simp at hc <;> (unfold Plain; omega)
      · unfold zfill at hc
        rcases List.mem_append.1 hc with hc | hc
        · exact zeros _ c hc
        · exact digits _ c hc
  have sign : ∀ (neg : Bool), ∀ c ∈ (if neg = true then [45] else []), Plain c := by decide
  cases x with
  | nan => cases h; decide
  | inf neg => cases h; cases neg <;> decide
  | fin neg m e =>
    unfold Dbl.repr at h
    simp only at h
    split at h
    · cases h; cases neg <;> decide
    · obtain ⟨p, _, rfl⟩ := Option.map_eq_some_iff.1 h
      intro c hc
      rcases List.mem_append.1 hc with hc | hc
      · exact sign neg c hc
      · exact lay _ _ c hc

theorem joinLF_mem {ls : List Str} {x : ℕ} : (x ∈ joinLF ls → x = 10 ∨ ∃ l ∈ ls, x ∈ l) ∧
    ∀ l ∈ ls, x ∈ l → x ∈ joinLF ls := by
  induction ls with
  | nil => exact ⟨fun h => (by cases h), fun l hl => (by cases hl)⟩
  | cons l ls ih =>
    cases ls with
    | nil =>
      refine ⟨fun h => .inr ⟨l, by simp, h⟩, fun m hm hx => ?_⟩
      simp at hm; subst hm; exact hx
    | cons l' ls =>
      simp only [joinLF]
      refine ⟨fun h => ?_, fun m hm hx => ?_⟩
      · simp only [List.mem_append, List.mem_cons] at h
        rcases h with h | rfl | h
        · exact .inr ⟨l, by simp, h⟩
        · exact .inl rfl
        · rcases ih.1 h with h | ⟨m, hm, h⟩
          · exact .inl h
          · exact .inr ⟨m, List.mem_cons_of_mem _ hm, h⟩
      · rcases List.mem_cons.1 hm with rfl | hm
        · simp [hx]
        · simp [ih.2 m hm hx]

theorem tableLine_mem {width : Str → ℤ} {ws : List ℤ} {cells : List Str} {x : ℕ} :
    (x ∈ tableLine width ws cells → Plain x ∨ ∃ c ∈ cells, x ∈ c) ∧
    (ws.length = cells.length → ∀ c ∈ cells, x ∈ c → x ∈ tableLine width ws cells) := by
  constructor
  · intro h
    simp only [tableLine, List.mem_append, List.mem_flatMap] at h
    rcases h with h | ⟨p, hp, (h | h) | h⟩
    · left; simp at h; unfold Plain; omega
    · left; simp at h; unfold Plain; omega
    · simp only [justify, List.mem_append, List.mem_replicate] at h
      rcases h with h | ⟨_, rfl⟩
      · exact .inr ⟨p.2, (List.of_mem_zip hp).2, h⟩
      · left; decide
    · left; simp at h; unfold Plain; omega
  · intro hlen c hc hx
    obtain ⟨i, hi, rfl⟩ := List.mem_iff_getElem.1 hc
    simp only [tableLine, List.mem_append, List.mem_flatMap]
    refine .inr ⟨(ws[i], cells[i]), ?_, .inl (.inr ?_)⟩
    · exact List.mem_iff_getElem.2 ⟨i, by simp [hlen, hi], by simp⟩
    · simp [justify, hx]

theorem height_le (hs : List ℕ) (i : ℕ) : i ≤ hs.foldl max i ∧ ∀ x ∈ hs, x ≤ hs.foldl max i := by
  induction hs generalizing i with
  | nil => exact ⟨Nat.le_refl _, fun x hx => (by cases hx)⟩
  | cons h hs ih =>
    obtain ⟨h1, h2⟩ := ih (max i h)
    simp only [List.foldl_cons]
    refine ⟨by omega, fun x hx => ?_⟩
    rcases List.mem_cons.1 hx with rfl | hx
    · omega
    · exact h2 x hx

theorem linesOf_mem {s : Str} {x : ℕ} : (∀ l ∈ linesOf s, x ∈ l → x ∈ s) ∧ (x ∈ s → x = 10 ∨ ∃ l ∈ linesOf s, x ∈ l) := by
  have hj := linesOf_joined s
  refine ⟨fun l hl hx => (joined_mem hj l hl).2 x hx, fun hx => ?_⟩
  generalize linesOf s = ls at hj
  induction hj with
  | one h => exact .inr ⟨_, by simp, hx⟩
  | more h hs ih =>
    simp only [List.mem_append, List.mem_cons] at hx
    rcases hx with hx | rfl | hx
    · exact .inr ⟨_, by simp, hx⟩
    · exact .inl rfl
    · rcases ih hx with h | ⟨l, hl, h⟩
      · exact .inl h
      · exact .inr ⟨l, by simp [hl], h⟩

theorem tableRow_mem {width : Str → ℤ} {ws : List ℤ} {cells : List Str} {x : ℕ} :
    (∀ l ∈ tableRow width ws cells, x ∈ l → Plain x ∨ ∃ c ∈ cells, x ∈ c) ∧
    (ws.length = cells.length → ∀ c ∈ cells, x ∈ c → x = 10 ∨ ∃ l ∈ tableRow width ws cells, x ∈ l) := by
  constructor
  · intro l hl hx
    simp only [tableRow, List.mem_map] at hl
    obtain ⟨y, _, rfl⟩ := hl
    rcases tableLine_mem.1 hx with h | ⟨c, hc, h⟩
    · exact .inl h
    · obtain ⟨d, hd, rfl⟩ := List.mem_map.1 hc
      cases he : (linesOf d)[y]? with
      | none => rw [he] at h; cases h
      | some m => rw [he] at h; exact .inr ⟨d, hd, linesOf_mem.1 m (List.mem_of_getElem? he) h⟩
  · intro hlen c hc hx
    rcases linesOf_mem.2 hx with h | ⟨l, hl, h⟩
    · exact .inl h
    · right
      obtain ⟨y, hy, rfl⟩ := List.mem_iff_getElem.1 hl
      refine ⟨_, List.mem_map.2 ⟨y, List.mem_range.2 ?_, rfl⟩, ?_⟩
      · exact Nat.lt_of_lt_of_le hy ((height_le _ 0).2 _ (List.mem_map.2 ⟨c, hc, rfl⟩))
      · refine tableLine_mem.2 (by simp [hlen]) _ (List.mem_map.2 ⟨c, hc, rfl⟩) ?_
        simpa [List.getElem?_eq_getElem hy] using h

theorem tableString_mem {width : Str → ℤ} {rows : List Line3} {x : ℕ} :
    (x ∈ tableString width tableHead (rows.map cells3) → Plain x ∨ ∃ r ∈ rows, ∃ c ∈ cells3 r, x ∈ c) ∧
    ((∃ r ∈ rows, ∃ c ∈ cells3 r, x ∈ c) → x = 10 ∨ x ∈ tableString width tableHead (rows.map cells3)) := by
  have hlen : (columnWidths width tableHead (rows.map cells3)).length = 3 := by
    rw [tableHead, columnWidths_three]; rfl
  unfold tableString
  simp only
  generalize columnWidths width tableHead (rows.map cells3) = ws at hlen
  have rule : ∀ {x : ℕ}, x ∈ tableRule ws → Plain x := by
    intro x h
    simp only [tableRule, List.mem_append, List.mem_flatMap, List.mem_replicate] at h
    rcases h with h | ⟨p, hp, ⟨_, h⟩ | h⟩
    · simp at h; unfold Plain; omega
    · unfold Plain; omega
    · simp at h; unfold Plain; omega
  constructor
  · intro h
    rcases joinLF_mem.1 h with rfl | ⟨l, hl, h⟩
    · left; decide
    · simp only [List.mem_cons, List.mem_append, List.mem_flatMap, List.mem_map, List.not_mem_nil, or_false] at hl
      rcases hl with rfl | rfl | rfl | ⟨_, ⟨r, hr, rfl⟩, hl⟩ | rfl
      · exact .inl (rule h)
      · rcases tableLine_mem.1 h with h | ⟨c, hc, h⟩
        · exact .inl h
        · left
          have : ∀ c ∈ tableHead, ∀ x ∈ c, Plain x := by decide
          exact this c hc x h
      · exact .inl (rule h)
      · rcases tableRow_mem.1 l hl h with h | h
        · exact .inl h
        · exact .inr ⟨r, hr, h⟩
      · exact .inl (rule h)
  · rintro ⟨r, hr, c, hc, h⟩
    rcases (tableRow_mem (width := width)).2 (by rw [hlen]; rfl) c hc h with h | ⟨l, hl, h⟩
    · exact .inl h
    · refine .inr (joinLF_mem.2 l ?_ h)
      simp only [List.mem_cons, List.mem_append, List.mem_flatMap, List.mem_map]
      exact .inr (.inr (.inr (.inl ⟨_, ⟨r, hr, rfl⟩, hl⟩)))

theorem cells_texts {rows : List Row} {cells : List (List Str)} (h : rows.mapM Row.cells = some cells) :
    ∃ ts, cells = ts.map cells3 ∧
      List.Forall₂ (fun r t => t.name = r.field ∧ t.value = r.value ∧ r.decoded.text = some t.decoded) rows ts := by
  induction rows generalizing cells with
  | nil => simp at h; exact ⟨[], by simp [h], .nil⟩
  | cons r rows ih =>
    simp only [List.mapM_cons, Option.bind_eq_bind, Option.bind_eq_some_iff, Option.pure_def, Option.some.injEq] at h
    obtain ⟨c, hc, cs, hcs, rfl⟩ := h
    obtain ⟨ts, rfl, hts⟩ := ih hcs
    unfold Row.cells at hc
    obtain ⟨s, hs, rfl⟩ := Option.map_eq_some_iff.1 hc
    exact ⟨⟨r.field, r.value, s⟩ :: ts, rfl, .cons ⟨rfl, rfl, hs⟩ hts⟩

/-- C107: What C104 says about output in an encoding that lacks characters is about the characters of this text: a text
    can be printed iff all of its characters are in the encoding. -/
theorem C107_encoding {can : ℕ → Bool} (hc : HasAscii can) {sc : Screen} (h27 : sc.colour = true → can 27 = true)
    {e : Event} {t : Str} (ht : e.text sc = some t)
    (hl : ∀ v s, e = .legTime v (.notInt s) → ∀ c ∈ s, c ∈ v) :
    e.fits can sc.printable = true ↔ ∀ c ∈ t, can c = true := by
  cases e with
  | line s => cases ht; exact List.all_eq_true
  | legTime v e =>
    cases ht
    refine ⟨fun h => ?_, fun h => List.all_eq_true.2 fun c hcv => h c (by simp [hcv])⟩
    refine over_append (P := fun c => can c = true) (over_append (over_append (over_lit hc (by decide))
      (List.all_eq_true.1 h)) (over_lit hc (by decide))) ?_
    cases e with
    | tooShort => exact over_lit hc (s := py!"string index out of range") (by decide)
    | notInt s =>
      refine over_append (over_lit hc (by decide)) fun x hx => ?_
      rcases reprStr_chars (List.mem_of_mem_take hx) with hx | ⟨hx, _⟩
      · exact hc x (.inr hx)
      · exact List.all_eq_true.1 h x (hl v s rfl x hx)
  | summary n f g =>
    obtain ⟨u, hu, rfl⟩ := Option.map_eq_some_iff.1 ht
    simp only [Event.fits, hu]
    rw [List.all_eq_true]
    unfold colored
    split
    · next hon =>
      refine ⟨fun h => ?_, fun h c hcu => h c (by simp [hcu])⟩
      have esc : Over (fun c => can c = true) [27] := fun c hx => by simp at hx; subst hx; exact h27 hon
      refine over_append (over_append (over_append (over_append esc ?_) h) esc) (over_lit hc (by decide))
      split <;> exact over_lit hc (by decide)
    · rfl
  | table rows =>
    obtain ⟨cells, hcells, rfl⟩ := Option.map_eq_some_iff.1 ht
    obtain ⟨ts, rfl, hts⟩ := cells_texts hcells
    have key : (Event.table rows).fits can sc.printable = true ↔ ∀ r ∈ ts, ∀ c ∈ cells3 r, ∀ x ∈ c, can x = true := by
      clear ht hcells hl
      induction hts with
      | nil => simp [Event.fits]
      | @cons r t rows ts h1 h2 ih =>
        rw [Event.fits, List.all_cons, Bool.and_eq_true, ← Event.fits.eq_2 can sc.printable, ih, List.forall_mem_cons]
        refine and_congr_left fun _ => ?_
        obtain ⟨e1, e2, e3⟩ := h1
        simp only [cells3, Bool.and_eq_true, List.all_eq_true, List.forall_mem_cons, e1, e2, List.not_mem_nil,
          false_imp_iff, implies_true, and_true, and_assoc]
        refine and_congr_right fun _ => and_congr_right fun _ => ?_
        cases hd : r.decoded with
        | str s => rw [hd] at e3; cases e3; simp
        | none =>
          rw [hd] at e3
          simp only [PyVal.text, Option.some.injEq] at e3
          rw [← e3]
          exact ⟨fun _ => over_lit hc (by decide), fun _ => rfl⟩
        | float x =>
          rw [hd] at e3
          exact ⟨fun _ c hx => hc c (repr_plain e3 c hx), fun _ => rfl⟩
    rw [key]
    constructor
    · intro h x hx
      rcases tableString_mem.1 hx with hx | ⟨r, hr, c, hcc, hx⟩
      · exact hc x hx
      · exact h r hr c hcc x hx
    · intro h r hr c hcc x hx
      rcases (tableString_mem (width := sc.width)).2 ⟨r, hr, c, hcc, hx⟩ with rfl | hx
      · exact hc 10 (.inl rfl)
      · exact h x hx

/-! ## `search` -/

section
variable [PyUnicode]

omit [PyUnicode] in
theorem texts_append {sc : Screen} {out out' : List Event} {ts ts' : List Str} (h : out.mapM (Event.text sc) = some ts)
    (h' : out'.mapM (Event.text sc) = some ts') : (out ++ out').mapM (Event.text sc) = some (ts ++ ts') := by
  rw [List.mapM_append, h, h']; rfl

open Classical in
/-- the texts of what `search` prints before the summary -/
theorem found_texts (sc : Screen) {filters : Filters} {ls : List Str} (hn : ∀ l ∈ ls, NoEOL l)
    (hlead : ∀ l ∈ ls, Hit filters l → NoLeadingSpace l) :
    ∃ ts, (ls.flatMap fun l => (Record.new.read l).out ++ (if Hit filters l then [Event.line (strip l)] else [])).mapM
        (Event.text sc) = some ts ∧ (∀ t ∈ ts, NoEOL t) ∧ hits filters ts = (hits filters ls).map strip ∧
      ∀ t ∈ ts, (∀ e, (Record.new.read t).res ≠ .error e) ∧ (Record.new.read t).out = [] := by
  have hP : HasPrintable (fun c => c ≠ 10 ∧ c ≠ 13) := fun c hc => by omega
  have notices : ∀ {out : List Event}, (∀ e ∈ out, Notice (fun c => c ≠ 10 ∧ c ≠ 13) e) →
      ∃ ts, out.mapM (Event.text sc) = some ts ∧ (∀ t ∈ ts, NoEOL t) ∧
        ∀ t ∈ ts, Record.new.read t = ⟨.ok false, Record.new, []⟩ := by
    intro out h
    induction out with
    | nil => exact ⟨[], by simp, by simp, by simp⟩
    | cons e out ih =>
      obtain ⟨ts, h1, h2, h3⟩ := ih fun e he => h e (by simp [he])
      obtain ⟨t, ht, hov, c, u, rfl, hc⟩ := notice_text hP (sc := sc) (h e (by simp))
      refine ⟨(c :: u) :: ts, by rw [List.mapM_cons, ht, h1]; rfl, ?_, ?_⟩
      · intro t ht
        rcases List.mem_cons.1 ht with rfl | ht
        · exact hov
        · exact h2 t ht
      · intro t ht
        rcases List.mem_cons.1 ht with rfl | ht
        · have : isSpace c = false ∧ c ≠ 83 ∧ c ≠ 84 := by
            have : ∀ c ∈ [85, 86, 82, 102, 69], isSpace c = false ∧ c ≠ 83 ∧ c ≠ 84 := by decide
            exact this c hc
          exact not_record this.1 this.2 _
        · exact h3 t ht
  induction ls with
  | nil => exact ⟨[], by simp, by simp, rfl, by simp⟩
  | cons l ls ih =>
    obtain ⟨ts, h1, h2, h3, h4⟩ := ih (fun l hl => hn l (by simp [hl])) fun l hl => hlead l (by simp [hl])
    obtain ⟨us, g1, g2, g3⟩ := notices (read_notice hP (r := Record.new) (line := l) (hn l (by simp)))
    have hus : ∀ us : List Str, (∀ t ∈ us, Record.new.read t = ⟨.ok false, Record.new, []⟩) →
        ∀ ts, hits filters (us ++ ts) = hits filters ts := by
      intro us hus ts
      induction us with
      | nil => rfl
      | cons u us ih =>
        rw [List.cons_append, hits_cons_neg, ih fun t ht => hus t (by simp [ht])]
        intro hh
        have := hh.1
        rw [hus u (by simp)] at this
        cases this
    by_cases hh : Hit filters l
    · have hrs := read_strip (hlead l (by simp) hh)
      have hacc := hh.1
      rw [hrs] at hacc
      have hst : Hit filters (strip l) := ⟨hacc, by rw [strip_strip]; exact hh.2⟩
      refine ⟨us ++ strip l :: ts, ?_, ?_, ?_, ?_⟩
      · rw [List.flatMap_cons, if_pos hh, List.append_assoc]
        exact texts_append g1 (by rw [List.singleton_append, List.mapM_cons, h1]; rfl)
      · intro t ht
        simp only [List.mem_append, List.mem_cons] at ht
        rcases ht with ht | rfl | ht
        · exact g2 t ht
        · exact noEOL_strip (hn l (by simp))
        · exact h2 t ht
      · rw [hus us g3, hits_cons_pos hst, hits_cons_pos hh, h3]; rfl
      · intro t ht
        simp only [List.mem_append, List.mem_cons] at ht
        rcases ht with ht | rfl | ht
        · rw [g3 t ht]; exact ⟨fun e => (by simp), rfl⟩
        · rw [hacc]
          refine ⟨fun e => (by simp), C12_otherwise_silent _ _ ?_⟩
          rintro ⟨t, k, i, hb⟩
          rw [(C12_bad_continuation_no Record.new _ _ _ _ hb).1] at hacc
          cases hacc
        · exact h4 t ht
    · refine ⟨us ++ ts, ?_, ?_, ?_, ?_⟩
      · rw [List.flatMap_cons, if_neg hh, List.append_nil]
        exact texts_append g1 h1
      · intro t ht
        rcases List.mem_append.1 ht with ht | ht
        · exact g2 t ht
        · exact h2 t ht
      · rw [hus us g3, hits_cons_neg hh, h3]
      · intro t ht
        rcases List.mem_append.1 ht with ht | ht
        · rw [g3 t ht]; exact ⟨fun e => (by simp), rfl⟩
        · exact h4 t ht

omit [PyUnicode] in
/-- the summary: one line that begins with `F` or a colour code -/
theorem summary_line {sc : Screen} {n : ℕ} {filters : Filters} {g : Bool} {u : Str}
    (hf : ∀ s, filters = .str s → NoEOL s) (h : (Event.summary n filters g).text sc = some u) :
    NoEOL u ∧ ∃ c t, u = c :: t ∧ isSpace c = false ∧ c ≠ 83 ∧ c ≠ 84 := by
  obtain ⟨w, hw, rfl⟩ := Option.map_eq_some_iff.1 h
  obtain ⟨x, hx, rfl⟩ := Option.map_eq_some_iff.1 hw
  have hP : HasPrintable (fun c => c ≠ 10 ∧ c ≠ 13) := fun c hc => by omega
  have lit : ∀ s : Str, s.all (fun c => 32 ≤ c && c ≤ 126) = true → NoEOL s := fun s hs => over_print hP hs
  have app : ∀ {s t : Str}, NoEOL s → NoEOL t → NoEOL (s ++ t) := fun h1 h2 => over_append h1 h2
  have hx' : NoEOL x := by
    cases filters with
    | other => cases hx
    | str s => cases hx; exact hf x rfl
    | list ss =>
      cases hx
      intro c hc
      simp only [List.mem_cons, List.mem_append, List.not_mem_nil, or_false] at hc
      rcases hc with rfl | hc | rfl
      · decide
      · rcases reprElems_chars hc with hc | ⟨_, hc⟩ <;> omega
      · decide
  have hw' : NoEOL (py!"Found " ++ natStr n ++ py!" records that contain " ++ x) := by
    refine app (app (app (lit _ (by decide)) ?_) (lit _ (by decide))) hx'
    intro c hc
    have := (natStr_decimal n).1.2.1 c hc
    omega
  unfold colored
  split
  · refine ⟨app (app (app (app (by decide) ?_) hw') (by decide)) (lit _ (by decide)), 27, _, rfl, by decide, by decide⟩
    split <;> exact lit _ (by decide)
  · exact ⟨hw', 70, _, rfl, by decide, by decide⟩

/-- C107: Standard output of a search of any file: the records that match, one per line, and the summary, which is green
    if there are any and red if not, where there are colours. (If a record has a bad continuation number, `read` adds three
    lines about it.) For the words of the summary see C99. -/
theorem C107_search {s : Str} {ls : List Str} (h : Lines s ls) {filters : Filters}
    (hok : ∀ l ∈ ls, ∀ e, (Record.new.read l).res ≠ .error e)
    (hq : ∀ l ∈ ls, ¬ ∃ t k i, BadContinuationNo l t k i) (sc : Screen) :
    stdoutText sc (search (.text s) filters).2 =
      (summaryText sc.printable (hits filters ls).length filters).map fun u =>
        (hits filters ls).flatMap (fun l => strip l ++ [10]) ++
          (if sc.colour then (if hits filters ls = [] then [27] ++ py!"[31m" else [27] ++ py!"[32m") ++ u ++ [27] ++ py!"[0m"
            else u) ++ [10] := by
  rw [C33_exact s ls h filters hok hq]
  have h1 : ∀ ts : List Str, (ts.map fun l => Event.line (strip l)).mapM (Event.text sc) = some (ts.map strip) := by
    intro ts
    induction ts with
    | nil => simp
    | cons t ts ih => rw [List.map_cons, List.mapM_cons, ih]; rfl
  unfold stdoutText
  rw [List.mapM_append, h1]
  simp only [Event.text, List.mapM_cons, List.mapM_nil]
  cases summaryText sc.printable (hits filters ls).length filters with
  | none => rfl
  | some u =>
    simp only [Option.map_some, Option.bind_eq_bind, Option.bind_some, Option.pure_def, List.flatMap_append,
      List.flatMap_map, List.flatMap_cons, List.flatMap_nil, List.append_nil, colored]
    cases hits filters ls <;> simp

/-- C107: Searching what a search wrote to standard output, with colours or without, finds the same records again.
    (Complaints and the summary are no records.) Not if a record has blanks in front: see C67. -/
theorem C107_search_again {s : Str} {ls : List Str} (h : Lines s ls) {filters : Filters}
    (hok : ∀ l ∈ ls, ∀ e, (Record.new.read l).res ≠ .error e)
    (hlead : ∀ l ∈ ls, Hit filters l → NoLeadingSpace l) (hf : ∀ s, filters = .str s → NoEOL s)
    {sc : Screen} {written : Str} (hw : stdoutText sc (search (.text s) filters).2 = some written) :
    search (.text written) filters = (.ok (), (hits filters ls).map (fun l => .line (strip l)) ++
      [.summary (hits filters ls).length filters ((hits filters ls).length != 0)]) := by
  obtain ⟨ts, h1, h2, h3, h4⟩ := found_texts sc (lines_noEOL h) hlead
  rw [C33_prints s ls h filters hok] at hw
  unfold stdoutText at hw
  obtain ⟨us, hus, rfl⟩ := Option.map_eq_some_iff.1 hw
  rw [List.mapM_append, h1] at hus
  simp only [Option.bind_eq_bind, Option.bind_some, Option.bind_eq_some_iff, Option.pure_def, Option.some.injEq,
    List.mapM_cons, List.mapM_nil] at hus
  obtain ⟨_, ⟨u, hu, _, rfl, rfl⟩, rfl⟩ := hus
  obtain ⟨g1, c, t, rfl, g2, g3⟩ := summary_line hf hu
  have hread := not_record (t := t) g2 g3 Record.new
  have hall : ∀ x ∈ ts ++ [c :: t], (∀ e, (Record.new.read x).res ≠ .error e) ∧ (Record.new.read x).out = [] := by
    intro x hx
    rcases List.mem_append.1 hx with hx | hx
    · exact h4 x hx
    · simp at hx; subst hx; rw [hread]; exact ⟨fun e => (by simp), rfl⟩
  have hL : Lines ((ts ++ [c :: t]).flatMap (· ++ [10])) (ts ++ [c :: t]) := by
    have := lines_terminated (eol := [10]) (.inl rfl) (ls := ts ++ [c :: t]) (fun x hx => by
      rcases List.mem_append.1 hx with hx | hx
      · exact h2 x hx
      · simp at hx; subst hx; exact g1) noEOL_nil
    simpa [terminated] using this
  have hhits : hits filters (ts ++ [c :: t]) = (hits filters ls).map strip := by
    have : hits filters (ts ++ [c :: t]) = hits filters ts ++ hits filters [c :: t] := by
      unfold hits; rw [List.filter_append]
    rw [this, h3, hits_cons_neg (by intro hh; have := hh.1; rw [hread] at this; cases this)]
    exact List.append_nil _
  rw [C33_exact _ _ hL filters (fun x hx => (hall x hx).1) (fun x hx ⟨a, k, i, hb⟩ => by
    obtain ⟨_, nm, _, ho⟩ := C12_bad_continuation_no Record.new x a k i hb
    rw [(hall x hx).2] at ho; cases ho), hhits]
  simp [strip_strip]

/-- C107: ... and writes the same again, if there are no complaints. -/
theorem C107_fixpoint {s : Str} {ls : List Str} (h : Lines s ls) {filters : Filters}
    (hok : ∀ l ∈ ls, ∀ e, (Record.new.read l).res ≠ .error e)
    (hq : ∀ l ∈ ls, ¬ ∃ t k i, BadContinuationNo l t k i)
    (hlead : ∀ l ∈ ls, Hit filters l → NoLeadingSpace l) (hf : ∀ s, filters = .str s → NoEOL s)
    {sc : Screen} {written : Str} (hw : stdoutText sc (search (.text s) filters).2 = some written) :
    stdoutText sc (search (.text written) filters).2 = some written := by
  rw [C107_search_again h hok hlead hf hw, ← C33_exact s ls h filters hok hq, hw]

/-! ## complaints -/

/-- C107: The complaint about a leg time that is not two digits names the value and the column that is wrong. -/
theorem C107_complaint {a b c : ℕ} {rest : Str} (hp : Printable (a :: b :: rest)) (hb : ¬ AllSpace (a :: b :: rest))
    (hc : (¬ (48 ≤ a ∧ a ≤ 57) ∧ c = a) ∨ ((48 ≤ a ∧ a ≤ 57) ∧ ¬ (48 ≤ b ∧ b ≤ 57) ∧ c = b)) (hq : c ≠ 39) (hs : c ≠ 92)
    (rec : RecInfo) (legs : Legs) (sc : Screen) :
    stdoutText sc (runDec .f065 (a :: b :: rest) rec legs).out = some
      (py!"Error: Invalid value passed to format_time. Value: \"" ++ (a :: b :: rest) ++
        py!"\". Error: invalid literal for int() with base 10: '" ++ [c] ++ py!"'\n") := by
  have hl : legTime (a :: b :: rest) = .error (.notInt [c]) := by
    rw [legTime_complaint (fun x hx => by have := hp x hx; omega)]
    · simp only [legComplaint]
      rcases hc with ⟨h, rfl⟩ | ⟨h, _, rfl⟩
      · rw [if_neg h]
      · rw [if_pos h]
    · rintro ⟨x, y, z, h, hx, hy⟩
      simp only [List.cons.injEq] at h
      obtain ⟨rfl, rfl, rfl⟩ := h
      rcases hc with ⟨h, _⟩ | ⟨_, h, _⟩
      · exact h hx
      · exact h hy
  have hc' : 32 ≤ c ∧ c ≤ 126 := by
    rcases hc with ⟨_, rfl⟩ | ⟨_, _, rfl⟩
    · exact hp _ (by simp)
    · exact hp _ (by simp)
  have hr : reprStr sc.printable [c] = [39, c, 39] := by
    simp only [reprStr, reprQuote, List.mem_singleton, List.flatMap_cons, List.flatMap_nil]
    rw [if_neg (fun h => hq h.1.symm)]
    unfold reprChar
    rw [if_neg (by omega), if_neg (by omega), if_neg (by omega), if_neg (by omega), if_neg (by omega), if_pos (by omega)]
    rfl
  have hf : (runDec .f065 (a :: b :: rest) rec legs).out = [.legTime (a :: b :: rest) (.notInt [c])] := by
    have : field_065 (a :: b :: rest) = (ret (py!"Invalid Value: \"" ++ (a :: b :: rest) ++ py!"\""),
        [.legTime (a :: b :: rest) (.notInt [c])]) := by
      unfold field_065
      rw [if_neg (by rw [strip_nil_iff]; exact hb), hl]
    exact congrArg Prod.snd this
  rw [hf]
  simp only [stdoutText, List.mapM_cons, List.mapM_nil, Event.text, LegErr.text, intMessage, hr]
  simp

/-! ## `read_file` -/

omit [PyUnicode] in
/-- a notice over printable characters, or a table of printable texts -/
def Clear (e : Event) : Prop :=
  Notice (fun c => 32 ≤ c ∧ c ≤ 126) e ∨
    ∃ rows, ∃ ts : List Line3, e = .table rows ∧ rows.mapM Row.cells = some (ts.map cells3) ∧ ∀ t ∈ ts, Sound t

omit [PyUnicode] in
def isTable : Event → Bool
  | .table _ => true
  | _ => false

omit [PyUnicode] in
theorem clear_block {sc : Screen} (hw : AsciiWidth sc.width) {e : Event} (h : Clear e) :
    ∃ t p, e.text sc = some t ∧ BlockOf t p (isTable e) := by
  rcases h with h | ⟨rows, ts, rfl, h1, h2⟩
  · obtain ⟨t, ht, hov, c, u, rfl, hc⟩ := notice_text (fun _ h => h) (sc := sc) h
    refine ⟨_, [c :: u], ht, .one (fun h10 => by have := hov 10 h10; omega), ?_⟩
    have : isTable e = false := by
      cases e with
      | table rows => exact h.elim
      | line s => rfl
      | legTime v e => rfl
      | summary n f g => rfl
    rw [this]
    refine .single ?_
    simp only [List.head?_cons, ne_eq, Option.some.injEq]
    rintro rfl
    revert hc
    decide
  · obtain ⟨a, b, c, hd, -⟩ := drawn_string hw h2
    obtain ⟨p, hp⟩ := drawn_block hd
    exact ⟨_, p, by simp only [Event.text, shownTable, h1]; rfl, hp⟩

omit [PyUnicode] in
theorem clear_blocks {sc : Screen} (hw : AsciiWidth sc.width) {out : List Event} (h : ∀ e ∈ out, Clear e) :
    ∃ ts, ∃ bs : List (List Str × Bool), out.mapM (Event.text sc) = some ts ∧ out.map (Event.text sc) = ts.map some ∧
      List.Forall₂ (fun t b => BlockOf t b.1 b.2) ts bs ∧ bs.map (·.2) = out.map isTable := by
  induction out with
  | nil => exact ⟨[], [], by simp, rfl, .nil, rfl⟩
  | cons e out ih =>
    obtain ⟨ts, bs, h1, h2, h3, h4⟩ := ih fun e he => h e (by simp [he])
    obtain ⟨t, p, g1, g2⟩ := clear_block hw (h e (by simp))
    exact ⟨t :: ts, (p, isTable e) :: bs, by rw [List.mapM_cons, g1, h1]; rfl, by simp [g1, h2], .cons g2 h3, by simp [h4]⟩

omit [PyUnicode] in
/-- texts that are clear can be told apart: what was printed is determined by the text -/
theorem clear_same {sc : Screen} (hw : AsciiWidth sc.width) {out out' : List Event} (h : ∀ e ∈ out, Clear e)
    (h' : ∀ e ∈ out', Clear e) (he : stdoutText sc out = stdoutText sc out') :
    out.map (Event.text sc) = out'.map (Event.text sc) ∧ out.map isTable = out'.map isTable := by
  obtain ⟨ts, bs, h1, h2, h3, h4⟩ := clear_blocks hw h
  obtain ⟨ts', bs', h1', h2', h3', h4'⟩ := clear_blocks hw h'
  rw [stdoutText, stdoutText, h1, h1'] at he
  obtain ⟨e1, e2⟩ := blocks_same h3 h3' (Option.some.inj he)
  rw [h2, h2', e1, ← h4, ← h4', e2]
  exact ⟨rfl, rfl⟩

omit [PyUnicode] in
theorem tables_same {sc : Screen} {out out' : List Event} (h : out.map (Event.text sc) = out'.map (Event.text sc))
    (h' : out.map isTable = out'.map isTable) :
    List.Forall₂ (fun r r' => shownTable sc.width r = shownTable sc.width r') (tables out) (tables out') := by
  induction out generalizing out' with
  | nil => cases out' with
    | nil => exact .nil
    | cons => cases h
  | cons e out ih =>
    cases out' with
    | nil => cases h
    | cons e' out' =>
      simp only [List.map_cons, List.cons.injEq] at h h'
      have i := ih h.2 h'.2
      cases e <;> cases e' <;> first | exact i | exact .cons h.1 i | cases h'.1

theorem accepted_clear {l : Str} (hp : Printable l) (ha : (Record.new.read l).res = .ok true)
    (h : ∀ e, (parse l true legTypeDesc).res ≠ .error e) : ∀ e ∈ (parse l true legTypeDesc).out, Clear e := by
  have hone : OneLine l := ⟨l, hp, .inl rfl⟩
  rcases parse_cases l true legTypeDesc with ⟨e, h1, h2, h3⟩ | ⟨h1, h2⟩ | ⟨h1, h2, _, _, h3⟩
  · exact absurd h2 (h e)
  · rw [h1] at ha; cases ha
  · rw [h3]
    intro e he
    rcases List.mem_append.1 he with he | he
    · exact .inl (read_notice (fun _ h => h) hp e he)
    · obtain ⟨hrec, hfs⟩ := read_plain ha hone
      have hraw : Over (fun c => 32 ≤ c ∧ c ≤ 126) (Record.new.read l).obj.raw := by
        obtain ⟨t, k, fs, hi⟩ := read_isLine ha
        rw [(C75_read hi).1]
        exact over_padded hp hi.padded
      have hid : Over (fun c => 32 ≤ c ∧ c ≤ 126) (Record.new.read l).obj.ident := by
        obtain ⟨t, k, fs, hi⟩ := read_isLine ha
        rw [(C75_read hi).2.1]
        have : ∀ k ∈ supported, ∀ c ∈ k, 32 ≤ c ∧ c ≤ 126 := by decide +kernel
        refine fun c hc => this k ?_ c hc
        cases hi.section_ with
        | byPair h => exact h
        | bySplit _ h => exact h
      cases hd : ((Record.new.read l).obj.decode true legTypeDesc).res with
      | error x => exact absurd ((h2 x).1 hd) (h x)
      | ok rows =>
        obtain ⟨ts, _, g2, g3, _⟩ := decode_texts ha hone true grown_init hd
        have hnot := decodeRows_notice (P := fun c => 32 ≤ c ∧ c ≤ 126) (fun _ h => h)
          (rec := (Record.new.read l).obj.info) (fs := (Record.new.read l).obj.fields) (legs := legTypeDesc)
          (fun f hf => (hfs f hf).2) hid hraw
        unfold Record.decode at hd he
        simp only at hd he
        cases hr : (decodeRows (Record.new.read l).obj.info (Record.new.read l).obj.fields legTypeDesc).res with
        | error x => rw [hr] at hd; cases hd
        | ok rs =>
          rw [hr] at hd he
          cases hd
          rcases List.mem_append.1 he with he | he
          · exact .inl (hnot e he)
          · simp at he
            exact .inr ⟨rows, ts, he, g2, g3⟩

theorem file_clear {s : Str} {ls : List Str} (h : Lines s ls) (hp : ∀ l ∈ ls, Printable l) {legs : Legs} (hl : Grown legs)
    (hr : (readFile (.text s) true legs).res = .ok ()) : ∀ e ∈ (readFile (.text s) true legs).out, Clear e := by
  rw [readFile_lines h] at hr ⊢
  have hok := parseLines_ok_iff hl hr
  rw [(parseLines_ok hok hl).2]
  intro e he
  obtain ⟨l, hl, he⟩ := List.mem_flatMap.1 he
  by_cases ha : (Record.new.read l).res = .ok true
  · exact accepted_clear (hp l hl) ha (hok l hl) e he
  · rcases parse_cases l true legTypeDesc with ⟨e, h1, h2, h3⟩ | ⟨h1, h2⟩ | ⟨h1, _⟩
    · exact absurd h2 (hok l hl e)
    · rw [h2] at he
      exact .inl (read_notice (fun _ h => h) (hp l hl) e he)
    · exact absurd h1 ha

/-- C107: What `read_file` wrote tells what it printed, text by text, and what the fields of the records are that it
    showed, for files of printable characters that are read to their end. -/
theorem C107_read_back {s s' : Str} {ls ls' : List Str} (h : Lines s ls) (h' : Lines s' ls')
    (hp : ∀ l ∈ ls, Printable l) (hp' : ∀ l ∈ ls', Printable l) {legs legs' : Legs} (hl : Grown legs) (hl' : Grown legs')
    (hr : (readFile (.text s) true legs).res = .ok ()) (hr' : (readFile (.text s') true legs').res = .ok ())
    {sc : Screen} (hw : AsciiWidth sc.width)
    (he : stdoutText sc (readFile (.text s) true legs).out = stdoutText sc (readFile (.text s') true legs').out) :
    (readFile (.text s) true legs).out.map (Event.text sc) = (readFile (.text s') true legs').out.map (Event.text sc) ∧
    List.Forall₂ (fun l l' => (Record.new.read l).obj.fields.map (fun f => (f.name, f.value)) =
        (Record.new.read l').obj.fields.map (fun f => (f.name, f.value)))
      (hits (.str []) ls) (hits (.str []) ls') := by
  obtain ⟨e1, e2⟩ := clear_same hw (file_clear h hp hl hr) (file_clear h' hp' hl' hr') he
  refine ⟨e1, ?_⟩
  have ht := tables_same e1 e2
  have g := (C68_tables_of_hits s ls h legs hl hr).2
  have g' := (C68_tables_of_hits s' ls' h' legs' hl' hr').2
  have hm : ∀ l ∈ hits (.str []) ls, Printable l ∧ (Record.new.read l).res = .ok true :=
    fun l hl => ⟨hp l (hits_mem hl).1, (hits_mem hl).2.1⟩
  have hm' : ∀ l ∈ hits (.str []) ls', Printable l ∧ (Record.new.read l).res = .ok true :=
    fun l hl => ⟨hp' l (hits_mem hl).1, (hits_mem hl).2.1⟩
  generalize hits (.str []) ls = xs at *
  generalize hits (.str []) ls' = xs' at *
  generalize tables (readFile (.text s) true legs).out = ys at *
  generalize tables (readFile (.text s') true legs').out = ys' at *
  clear e1 e2 he hr hr' h h' hp hp'
  induction ht generalizing xs xs' with
  | nil =>
    cases xs with
    | cons => cases g
    | nil => cases xs' with
      | cons => cases g'
      | nil => exact .nil
  | cons h1 h2 ih =>
    cases xs with
    | nil => cases g
    | cons x xs =>
      cases xs' with
      | nil => cases g'
      | cons x' xs' =>
        simp only [List.map_cons, List.cons.injEq] at g g'
        obtain ⟨a1, a2⟩ := hm x (by simp)
        obtain ⟨b1, b2⟩ := hm' x' (by simp)
        refine .cons ?_ (ih xs (fun l hl => hm l (by simp [hl])) xs' (fun l hl => hm' l (by simp [hl])) g.2 g'.2)
        exact (C106_read_back a2 b2 ⟨x, a1, .inl rfl⟩ ⟨x', b1, .inl rfl⟩ true true grown_init grown_init g.1.symm g'.1.symm
          hw h1).1

end

/-! ## Examples -/

section
attribute [local instance] Py.Tables.cpython311

/-- a terminal without and with colours -/
def plainScreen (colour : Bool) : Screen := ⟨asciiWidth, Py.Tables.printable311, colour⟩

/-- one record found, among three lines -/
example : stdoutText (plainScreen true)
      (search (.text (fileOf [Sample.airport, Sample.noSection, Sample.vhf])) (.str (py!"SEATTLE"))).2 =
    some (Sample.airport ++ [10, 27] ++ py!"[32mFound 1 records that contain SEATTLE" ++ [27] ++ py!"[0m\n") := by
  decide +kernel

/-- hypotheses of `C107_search_again` are met by a file with a bad continuation number, too -/
example : (search (.text (fileOf [Sample.airport, Sample.airportBadCont])) (.list [py!"SEA"])).1 = .ok () ∧
    (search (.text (fileOf [Sample.airport, Sample.airportBadCont])) (.list [py!"SEA"])).2.length = 5 ∧
    ((stdoutText (plainScreen false) (search (.text (fileOf [Sample.airport, Sample.airportBadCont])) (.list [py!"SEA"])).2).map
      fun t => (search (.text t) (.list [py!"SEA"])).2) =
      some [.line Sample.airport, .summary 1 (.list [py!"SEA"]) true] := by
  decide +kernel

/-- hypotheses of `C107_read_back` are met -/
example : Lines (fileOf [Sample.airport, Sample.noSection]) [Sample.airport, Sample.noSection] ∧
    (∀ l ∈ [Sample.airport, Sample.noSection], Printable l) ∧
    (readFile (.text (fileOf [Sample.airport, Sample.noSection])) true legTypeDesc).res = .ok () ∧
    AsciiWidth (plainScreen true).width := by
  refine ⟨?_, by unfold Printable; decide +kernel, by decide +kernel, fun _ _ => rfl⟩
  have := lines_terminated (eol := [10]) (.inl rfl) (ls := [Sample.airport, Sample.noSection])
    (by unfold NoEOL; decide +kernel) noEOL_nil
  simpa [fileOf] using this

/-- hypotheses of `C107_complaint` are met -/
example : Printable (py!"1X00") ∧ ¬ AllSpace (py!"1X00") := by
  refine ⟨by unfold Printable; decide, fun h => absurd (h 49 (by decide)) (by decide +kernel)⟩

/-- the text of a complaint about a leg time -/
example : (Event.legTime (py!"1X00") (.notInt (py!"X"))).text (plainScreen false) =
    some (py!"Error: Invalid value passed to format_time. Value: \"1X00\". " ++
      py!"Error: invalid literal for int() with base 10: 'X'") := by decide +kernel

end
end Arinc
