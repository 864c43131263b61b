import Verif.Lemmas.TableSize
import Verif.Props.Chars
import Verif.Props.Fates
import Verif.Props.Stdout
import Verif.Props.Samples
import Verif.Py.Cpython311
import Verif.Py.Printable
/-!
# C115: how much is printed
-/
namespace Arinc
open Py Spec Spec.Std

/-! ## The lists of fields -/

theorem kinds_size : kindsOf.all (fun e => (e.2.2.1.map (·.2) ++ e.2.2.2.toList).all (fun fs =>
    decide (fs.length ≤ 43) && fs.all fun f => decide (f.name.length ≤ 42) && decide (f.name.count 10 = 0) &&
      decide (f.shown.1.length ≤ 100))) = true := by decide +kernel

theorem fieldsOf_size (k : Str) (p : Bool) (a : Str) : (fieldsOf k p a).length ≤ 43 ∧
    ∀ f ∈ fieldsOf k p a, Size 42 0 f.name ∧ f.shown.1.length ≤ 100 := by
  have key : ∀ fs, (∃ e ∈ kindsOf, fs ∈ e.2.2.1.map (·.2) ++ e.2.2.2.toList) → fs.length ≤ 43 ∧
      ∀ f ∈ fs, Size 42 0 f.name ∧ f.shown.1.length ≤ 100 := by
    rintro fs ⟨e, he, h⟩
    have h1 := List.all_eq_true.1 (List.all_eq_true.1 kinds_size e he) fs h
    simp only [Bool.and_eq_true, decide_eq_true_eq, List.all_eq_true] at h1
    exact ⟨h1.1, fun f hf => ⟨⟨(h1.2 f hf).1.1, by rw [(h1.2 f hf).1.2]⟩, (h1.2 f hf).2⟩⟩
  unfold fieldsOf
  split
  · exact ⟨by simp, fun f hf => by cases hf⟩
  · next e he =>
    have hm := List.mem_of_find?_eq_some he
    split
    · next _ l hl => exact key _ ⟨e, hm, List.mem_append_left _ (List.mem_map.2 ⟨_, lookup_mem hl, rfl⟩)⟩
    · next _ l hl ho => exact key _ ⟨e, hm, List.mem_append_right _ (by rw [ho]; simp)⟩
    · exact ⟨by simp, fun f hf => by cases hf⟩

theorem size_pick {line : Str} (h : NoEOL line) (cs : List ℕ) : Size cs.length 0 (pick line cs) := by
  constructor
  · induction cs with
    | nil => simp [pick]
    | cons c cs ih =>
      unfold pick at ih ⊢
      rw [List.flatMap_cons, List.length_append, List.length_cons]
      have : (col line c).length ≤ 1 := by unfold col; cases line[c]? <;> simp
      omega
  · refine Nat.le_of_eq (List.count_eq_zero.2 fun hc => ?_)
    simp only [pick, List.mem_flatMap, col, Option.mem_toList] at hc
    obtain ⟨i, _, hi⟩ := hc
    exact (h _ (List.mem_of_getElem? hi)).1 rfl

theorem written_noLF {n : ℕ} {k : ℤ} {s : Str} (h : Written n k s) : ∀ c ∈ s, c ≠ 10 := by
  have zero : ∀ (j : ℕ), ∀ c ∈ List.replicate j 48, c ≠ 10 := by
    intro j c hc; rw [List.mem_replicate] at hc; omega
  cases h with
  | @whole j ds hd hl =>
    intro c hc
    simp only [List.mem_append, List.mem_cons, List.not_mem_nil, or_false] at hc
    rcases hc with (hc | hc) | hc | hc
    · have := hd.1.2.1 c hc; omega
    · exact zero j c hc
    · omega
    · omega
  | @point ip fp hd hi hf hl =>
    intro c hc
    simp only [List.mem_append, List.mem_cons, List.not_mem_nil, or_false] at hc
    rcases hc with (hc | hc) | hc
    · have := hd.1.2.1 c (by simp [hc]); omega
    · omega
    · have := hd.1.2.1 c (by simp [hc]); omega
  | @small j ds hd hj =>
    intro c hc
    simp only [List.mem_append, List.mem_cons, List.not_mem_nil, or_false] at hc
    rcases hc with ((hc | hc) | hc) | hc
    · omega
    · omega
    · exact zero j c hc
    · have := hd.1.2.1 c hc; omega
  | @exponent _ c ds ex neg e hd hk he hex hex2 =>
    intro d hd'
    have hc := hd.1.2.1 c (by simp)
    simp only [List.mem_append, List.mem_cons, List.not_mem_nil, or_false] at hd'
    rcases hd' with hd' | ((hd' | hd') | hd') | hd'
    · omega
    · split at hd'
      · cases hd'
      · simp only [List.mem_append, List.mem_cons, List.not_mem_nil, or_false] at hd'
        rcases hd' with hd' | hd'
        · omega
        · have := hd.1.2.1 d (by simp [hd']); omega
    · omega
    · split at hd' <;> simp at hd' <;> omega
    · have := hex.2.1 d hd'; omega

theorem short_size {x : Dbl} {s : Str} (h : ShortText x s) : Size 24 0 s := by
  refine ⟨short_length h, Nat.le_of_eq (List.count_eq_zero.2 fun h10 => ?_)⟩
  have sign : ∀ (neg : Bool), 10 ∉ (if neg = true then py!"-" else []) := by decide
  cases h with
  | nan => revert h10; decide
  | inf => revert h10; decide
  | negInf => revert h10; decide
  | @zero neg e => cases neg <;> (revert h10; decide)
  | @fin neg m n e k s h0 back short near even hs =>
    rcases List.mem_append.1 h10 with hc | hc
    · exact sign neg hc
    · exact written_noLF hs 10 hc rfl

section
variable [PyUnicode]

theorem tells_size {k t line : Str} (hline : NoEOL line) (ht : t.length ≤ 132) (hk : k.length ≤ 132)
    {fs : List StdField} (hw : ∀ f ∈ fs, fullWidth f.shown.2 (pick line f.shown.1).length = true)
    (hn : ∀ f ∈ fs, Size 42 0 f.name ∧ f.shown.1.length ≤ 100) (hfs : fs.length ≤ 43)
    {res : Except Exc (List Row)} {out : List Event} (h : Tells k t line fs res out) :
    out.length ≤ 2 * fs.length ∧ (∀ e ∈ out, NoteSize e) ∧
      ∀ rows, res = .ok rows → rows.length = fs.length ∧ RowsSize rows := by
  have gives : ∀ {f : StdField} {r : Except Exc PyVal} {o : List Event}, f.shown.1.length ≤ 100 →
      fullWidth f.shown.2 (pick line f.shown.1).length = true → Spec.Gives k t f.shown.2 (pick line f.shown.1) r o →
      (∀ x, r = .ok x → ∀ s, x.text = some s → Size 352 4 s) ∧ o.length ≤ 2 ∧ ∀ e ∈ o, NoteSize e := by
    intro f r o h100 hw h
    obtain ⟨h1, h2⟩ := (gives_iff f.shown.2 _ ⟨k, t⟩ grown_init hw r o).1 h
    have hp : Size 132 0 (pick line f.shown.1) := size_mono (size_pick hline _) (by omega) (by omega)
    obtain ⟨h3, h4, h5⟩ := runDec_size hp (rec := ⟨k, t⟩) hk ht grown_init f.shown.2
    refine ⟨?_, h2 ▸ h4, fun e he => h5 e (h2 ▸ he)⟩
    rintro x rfl s hs
    cases x with
    | str u => cases hs; exact h3 _ h1
    | none => cases hs; exact ⟨by decide, by decide⟩
    | float x =>
      exact size_mono (short_size ((repr_iff (gives_encoded h)).1 hs)) (by decide) (by decide)
  induction h with
  | nil =>
    refine ⟨by simp, fun e he => (by cases he), fun rows hr => ?_⟩
    cases hr
    exact ⟨rfl, by simp, fun r hr => by cases hr⟩
  | @raised f fs e out h =>
    obtain ⟨h1, h2, h3⟩ := gives (hn _ (by simp)).2 (hw _ (by simp)) h
    exact ⟨by rw [List.length_cons]; omega, h3, fun rows hr => by cases hr⟩
  | @shown f fs x rows out out' h r ih =>
    obtain ⟨h1, h2, h2'⟩ := gives (hn _ (by simp)).2 (hw _ (by simp)) h
    rw [List.length_cons] at hfs
    obtain ⟨h3, h4, h5⟩ := ih (fun f hf => hw f (by simp [hf])) (fun f hf => hn f (by simp [hf])) (by omega)
    refine ⟨by rw [List.length_append, List.length_cons]; omega, fun e he => ?_, fun rows' hr => ?_⟩
    · rcases List.mem_append.1 he with he | he
      · exact h2' e he
      · exact h4 e he
    · cases hr
      obtain ⟨h6, h7, h8⟩ := h5 _ rfl
      refine ⟨by rw [List.length_cons, List.length_cons, h6], by rw [List.length_cons]; omega, fun r hr => ?_⟩
      rcases List.mem_cons.1 hr with rfl | hr
      · have hp := size_mono (size_pick hline f.shown.1) (hn f (by simp)).2 (Nat.le_refl _)
        exact ⟨(hn _ (by simp)).1, size_mono (size_append (size_append (size_lit _) hp) (size_lit _)) (by decide) (by decide),
          h1 _ rfl⟩
      · exact h8 r hr
  | @later f fs x e out out' h r ih =>
    obtain ⟨_, h2, h2'⟩ := gives (hn _ (by simp)).2 (hw _ (by simp)) h
    rw [List.length_cons] at hfs
    obtain ⟨h3, h4, _⟩ := ih (fun f hf => hw f (by simp [hf])) (fun f hf => hn f (by simp [hf])) (by omega)
    refine ⟨by rw [List.length_append, List.length_cons]; omega, fun e he => ?_, fun rows' hr => by cases hr⟩
    rcases List.mem_append.1 he with he | he
    · exact h2' e he
    · exact h4 e he

theorem section_size {line k : Str} (h : Resolves line k) : k.length ≤ 132 := by
  have : ∀ k ∈ supported, k.length ≤ 132 := by decide
  cases h with
  | byPair h => exact this _ h
  | bySplit _ h => exact this _ h

theorem padded_size {line t : Str} (h : Padded line t) : t.length ≤ line.length := by
  obtain ⟨pre, post, rfl, _, _⟩ := h
  simp only [List.length_append]; omega

theorem record_size {line t k : Str} {fs : List StdField} (h : FateOf [] line (.record t k fs)) :
    t.length = 132 ∧ 132 ≤ line.length ∧ k.length ≤ 132 ∧ fs.length ≤ 43 ∧
      ∀ f ∈ fs, Size 42 0 f.name ∧ f.shown.1.length ≤ 100 := by
  cases h with
  | record h =>
    have h1 := h.shape.length
    have h2 := padded_size h.padded
    have h3 := fieldsOf_size k (isPrimary [] t k) (pick line (appColumns k))
    rw [← h.fields] at h3
    exact ⟨h1, by omega, section_size h.section_, h3.1, h3.2⟩

theorem prints_size {line : Str} {f : Fate} (h : FateOf [] line f) :
    f.prints = [] ∨ 132 ≤ line.length ∧ f.prints.length ≤ 3 ∧ ∀ e ∈ f.prints, ∃ s, e = .line s ∧ s.length ≤ 400 := by
  cases h with
  | @badNumber t k name i hp ht hk hi h hn =>
    have h1 := ht.length
    have h2 := padded_size hp
    have h3 : name.length ≤ 100 := by
      unfold recordName at hn
      exact (size_lookup (by unfold ShortTable; decide +kernel) hn).1.trans (by decide)
    have h4 : (col t i).length ≤ 1 := by unfold col; cases t[i]? <;> simp
    refine .inr ⟨by omega, by simp [Fate.prints], fun e he => ?_⟩
    simp only [Fate.prints, List.mem_cons, List.not_mem_nil, or_false] at he
    rcases he with rfl | rfl | rfl
    · refine ⟨_, rfl, ?_⟩
      simp only [List.length_append, List.length_cons, List.length_nil]; omega
    · exact ⟨_, rfl, by decide⟩
    · refine ⟨_, rfl, ?_⟩
      simp only [List.length_append, List.length_cons, List.length_nil]; omega
  | _ => exact .inl rfl

/-- what one line prints: nothing, or the messages of at most 43 fields, and one table -/
theorem lineDoes_size {output : Bool} {line : Str} (hline : NoEOL line) {res : Except Exc Bool} {out : List Event}
    (h : LineDoes output line res out) : out = [] ∨ 132 ≤ line.length ∧
      ∃ notes tables, out = notes ++ tables ∧ notes.length ≤ 86 ∧ (∀ e ∈ notes, NoteSize e) ∧
        (tables = [] ∨ ∃ rows, tables = [.table rows] ∧ RowsSize rows) := by
  cases h with
  | shown hf ht =>
    obtain ⟨h1, h2, h3, h4, h5⟩ := record_size hf
    obtain ⟨h6, h7, h8⟩ := tells_size hline (by omega) h3 (record_width hf) h5 h4 ht
    refine .inr ⟨h2, _, _, rfl, by omega, h7, ?_⟩
    cases output
    · exact .inl rfl
    · exact .inr ⟨_, rfl, (h8 _ rfl).2⟩
  | failed hf ht =>
    obtain ⟨h1, h2, h3, h4, h5⟩ := record_size hf
    obtain ⟨h6, h7, _⟩ := tells_size hline (by omega) h3 (record_width hf) h5 h4 ht
    exact .inr ⟨h2, _, [], (List.append_nil _).symm, by omega, h7, .inl rfl⟩
  | other hf _ =>
    rcases prints_size hf with h | ⟨h1, h2, h3⟩
    · exact .inl h
    · refine .inr ⟨h1, _, [], (List.append_nil _).symm, by omega, fun e he => ?_, .inl rfl⟩
      obtain ⟨s, rfl, hs⟩ := h3 e he
      exact hs

/-! ## Texts -/

omit [PyUnicode] in
theorem stdout_append {sc : Screen} {a b : List Event} {w : Str} (h : stdoutText sc (a ++ b) = some w) :
    ∃ x y, stdoutText sc a = some x ∧ stdoutText sc b = some y ∧ w = x ++ y := by
  unfold stdoutText at h
  obtain ⟨ts, h', rfl⟩ := Option.map_eq_some_iff.1 h
  rw [List.mapM_append] at h'
  simp only [Option.bind_eq_bind, Option.bind_eq_some_iff, Option.pure_def, Option.some.injEq] at h'
  obtain ⟨x, hx, y, hy, rfl⟩ := h'
  exact ⟨_, _, by rw [stdoutText, hx]; rfl, by rw [stdoutText, hy]; rfl, by rw [List.flatMap_append]⟩

omit [PyUnicode] in
theorem stdout_one {sc : Screen} {e : Event} {w : Str} (h : stdoutText sc [e] = some w) :
    ∃ t, e.text sc = some t ∧ w = t ++ [10] := by
  unfold stdoutText at h
  obtain ⟨ts, h', rfl⟩ := Option.map_eq_some_iff.1 h
  simp only [List.mapM_cons, List.mapM_nil, Option.bind_eq_bind, Option.bind_eq_some_iff, Option.pure_def,
    Option.some.injEq] at h'
  obtain ⟨t, ht, y, hy, rfl⟩ := h'
  subst hy
  exact ⟨t, ht, by simp⟩

omit [PyUnicode] in
theorem stdout_le {sc : Screen} {B : ℕ} {out : List Event} (hB : ∀ e ∈ out, ∀ t, e.text sc = some t → t.length + 1 ≤ B)
    {w : Str} (h : stdoutText sc out = some w) : w.length ≤ B * out.length := by
  induction out generalizing w with
  | nil => cases h; simp
  | cons e out ih =>
    obtain ⟨x, y, hx, hy, rfl⟩ := stdout_append (a := [e]) h
    obtain ⟨t, ht, rfl⟩ := stdout_one hx
    have h1 := hB e (by simp) t ht
    have h2 := ih (fun e he => hB e (by simp [he])) hy
    simp only [List.length_append, List.length_cons, List.length_nil, Nat.mul_add, Nat.mul_one]
    omega

omit [PyUnicode] in
theorem note_text {sc : Screen} {e : Event} (h : NoteSize e) {t : Str} (ht : e.text sc = some t) :
    t.length + 1 ≤ 441 := by
  cases e with
  | line s => cases ht; unfold NoteSize at h; omega
  | table rows => exact h.elim
  | summary n f g => exact h.elim
  | legTime v e =>
    obtain ⟨h1, h2⟩ := h
    cases ht
    have h3 : (e.text sc.printable).length ≤ 240 := by
      cases e with
      | tooShort => exact (by decide : (25 : ℕ) ≤ 240)
      | notInt s =>
        simp only [LegErr.text, intMessage, List.length_append, List.length_take, List.length_cons, List.length_nil]
        omega
    simp only [List.length_append, List.length_cons, List.length_nil]
    omega

omit [PyUnicode] in
theorem rows_text {width : Str → ℤ} (hw : AtMostDouble width) {rows : List Row} (h : RowsSize rows) {t : Str}
    (ht : shownTable width rows = some t) : t.length ≤ 328938 := by
  obtain ⟨cells, hc, rfl⟩ := Option.map_eq_some_iff.1 ht
  obtain ⟨ts, rfl, h2⟩ := cells_texts hc
  have hl := h2.length_eq
  refine tableString_le hw (n := 43) (A := 42) (B := 102) (C := 352) (D := 4) (by rw [← hl]; exact h.1) (by decide) (by decide)
    (by decide) ?_
  have h3 := h.2
  clear hc ht h hl
  induction h2 with
  | nil => intro r hr; cases hr
  | @cons q _ _ _ hh _ ih =>
    intro r hr
    rcases List.mem_cons.1 hr with rfl | hr
    · obtain ⟨a, b, c⟩ := hh
      obtain ⟨d, e, f⟩ := h3 q (by simp)
      exact ⟨a ▸ d, b ▸ e, f _ c⟩
    · exact ih (fun r hr => h3 r (by simp [hr])) r hr

theorem lineDoes_text {sc : Screen} (hw : AtMostDouble sc.width) {output : Bool} {line : Str} (hline : NoEOL line)
    {res : Except Exc Bool} {out : List Event} (h : LineDoes output line res out) {w : Str}
    (ht : stdoutText sc out = some w) : w.length ≤ 2780 * line.length := by
  rcases lineDoes_size hline h with rfl | ⟨h1, notes, tables, rfl, h2, h3, h4⟩
  · cases ht; simp
  · obtain ⟨x, y, hx, hy, rfl⟩ := stdout_append ht
    have h5 := stdout_le (fun e he t ht => note_text (h3 e he) ht) hx
    have h6 : y.length ≤ 328939 := by
      rcases h4 with rfl | ⟨rows, rfl, hr⟩
      · cases hy; simp
      · obtain ⟨t, ht', rfl⟩ := stdout_one hy
        have := rows_text hw hr ht'
        simp only [List.length_append, List.length_cons, List.length_nil]; omega
    rw [List.length_append]
    omega

theorem fileDoes_text {sc : Screen} (hw : AtMostDouble sc.width) {output : Bool} {ls : List Str} (hls : ∀ l ∈ ls, NoEOL l)
    {res : Except Exc Unit} {out : List Event} (h : FileDoes output ls res out) {w : Str}
    (ht : stdoutText sc out = some w) : w.length ≤ 2780 * (ls.map List.length).sum := by
  induction h generalizing w with
  | done => cases ht; simp
  | line h t ih =>
    obtain ⟨x, y, hx, hy, rfl⟩ := stdout_append ht
    have h1 := lineDoes_text hw (hls _ (by simp)) h hx
    have h2 := ih (fun l hl => hls l (by simp [hl])) hy
    rw [List.length_append, List.map_cons, List.sum_cons, Nat.mul_add]
    omega
  | stop h =>
    have h1 := lineDoes_text hw (hls _ (by simp)) h ht
    rw [List.map_cons, List.sum_cons, Nat.mul_add]
    omega

omit [PyUnicode] in
theorem lines_length {s : Str} {ls : List Str} (h : Lines s ls) : (ls.map List.length).sum ≤ s.length := by
  induction h with
  | nil => simp
  | last h hne => simp
  | lf h t ih | crlf h t ih | cr h t hs ih =>
    simp only [List.map_cons, List.sum_cons, List.length_append, List.length_cons, List.length_nil]
    omega

/-- C115: reading a file prints at most 2780 characters for each character of the file. -/
theorem C115_read_file {s : Str} {ls : List Str} (hs : Lines s ls) (output : Bool) {legs : Legs} (hl : Grown legs)
    {sc : Screen} (hw : AtMostDouble sc.width) {w : Str} (h : stdoutText sc (readFile (.text s) output legs).out = some w) :
    w.length ≤ 2780 * s.length := by
  have h1 := fileDoes_text hw (lines_noEOL hs) ((C86_read_file hs output hl _ _).1 ⟨rfl, rfl⟩) h
  have h2 := lines_length hs
  omega

/-- C115: and `parse` for each character of a line. -/
theorem C115_parse {line : Str} (hline : NoEOL line) (output : Bool) {legs : Legs} (hl : Grown legs) {sc : Screen}
    (hw : AtMostDouble sc.width) {w : Str} (h : stdoutText sc (parse line output legs).out = some w) :
    w.length ≤ 2780 * line.length :=
  lineDoes_text hw hline (lineDoes_parse line output hl) h

/-- C115: and so does reading a folder. -/
theorem C115_read_folder (fs : List FileObj) {legs : Legs} (hl : Grown legs) {sc : Screen} (hw : AtMostDouble sc.width)
    {w : Str} (h : stdoutText sc (readFolder (some fs) legs).out = some w) : w.length ≤ 2780 * characters fs := by
  have hf := (C86_read_folder fs hl _ _).1 ⟨rfl, rfl⟩
  generalize (readFolder (some fs) legs).res = res at hf
  generalize (readFolder (some fs) legs).out = out at hf h
  induction hf generalizing w with
  | done => cases h; simp
  | file hs h1 t ih =>
    obtain ⟨x, y, hx, hy, rfl⟩ := stdout_append h
    have h2 := fileDoes_text hw (lines_noEOL hs) h1 hx
    have h3 := lines_length hs
    have h4 := ih hy
    rw [List.length_append, characters]
    omega
  | stop hs h1 =>
    have h2 := fileDoes_text hw (lines_noEOL hs) h1 h
    have h3 := lines_length hs
    rw [characters]
    omega
  | unopenable => cases h; simp
  | undecodable => cases h; simp

/-- C115: a search prints, besides its summary, at most ten characters for each character of the file. -/
theorem C115_search {s : Str} {ls : List Str} (hs : Lines s ls) (filters : Filters) {sc : Screen} {w : Str}
    (h : stdoutText sc (body (search (.text s) filters).2) = some w) : w.length ≤ 10 * s.length := by
  have hr := (C80_search hs filters (search (.text s) filters).1 (search (.text s) filters).2).1 rfl
  have hl := lines_length hs
  suffices hh : w.length ≤ 10 * (ls.map List.length).sum by omega
  clear hs hl
  generalize (search (.text s) filters).1 = res at hr
  generalize (search (.text s) filters).2 = out at hr h
  generalize 0 = n at hr
  induction hr generalizing w with
  | done n => cases h; simp
  | @found n l ls t k fs res out hf hm r ih =>
    obtain ⟨h1, h2, _⟩ := record_size hf
    obtain ⟨x, y, hx, hy, rfl⟩ := stdout_append (a := [.line t]) (b := body out) h
    obtain ⟨u, hu, rfl⟩ := stdout_one hx
    cases hu
    have h3 := ih hy
    simp only [List.length_append, List.length_cons, List.length_nil, List.map_cons, List.sum_cons]
    omega
  | @other n l ls t k fs res out hf hm r ih =>
    have h3 := ih h
    rw [List.map_cons, List.sum_cons]
    omega
  | @skip n l ls f res out hf hr r ih =>
    unfold body at h
    rw [List.filter_append] at h
    obtain ⟨x, y, hx, hy, rfl⟩ := stdout_append h
    have h3 := ih hy
    have h4 : x.length ≤ 10 * l.length := by
      rcases prints_size hf with h | ⟨h1, h2, h3⟩
      · rw [h] at hx; cases hx; simp
      · have h5 := stdout_le (B := 401) (fun e he t ht => by
          obtain ⟨s, rfl, hs⟩ := h3 e (List.mem_of_mem_filter he)
          cases ht; omega) hx
        have h6 := List.length_filter_le notSummary f.prints
        omega
    rw [List.length_append, List.map_cons, List.sum_cons]
    omega
  | stop hf => cases h; simp

/-- C115: a table has at most 43 rows; the name of a field has at most 42 characters, its columns, with the quotes, at
    most 102, and what they mean is told in at most 352 characters. -/
theorem C115_table {s : Str} {ls : List Str} (hs : Lines s ls) (output : Bool) {legs : Legs} (hl : Grown legs)
    {rows : List Row} (h : .table rows ∈ (readFile (.text s) output legs).out) :
    rows.length ≤ 43 ∧ ∀ r ∈ rows, r.field.length ≤ 42 ∧ r.value.length ≤ 102 ∧
      ∀ s, CellText r.decoded s → s.length ≤ 352 := by
  have hf := (C86_read_file hs output hl _ _).1 ⟨rfl, rfl⟩
  have hn := lines_noEOL hs
  clear hs
  have line : ∀ {l : Str} {r : Except Exc Bool} {o : List Event}, NoEOL l → LineDoes output l r o → .table rows ∈ o →
      RowsSize rows := by
    intro l r o hl ho hm
    rcases lineDoes_size hl ho with rfl | ⟨_, notes, tables, rfl, _, h3, h4⟩
    · cases hm
    · rcases List.mem_append.1 hm with hm | hm
      · exact (h3 _ hm).elim
      · rcases h4 with rfl | ⟨rows', rfl, hr⟩
        · cases hm
        · rw [List.mem_singleton] at hm; cases hm; exact hr
  suffices hr : RowsSize rows from
    ⟨hr.1, fun r h => ⟨(hr.2 r h).1.1, (hr.2 r h).2.1.1, fun s hs => by
      have h1 := (hr.2 r h).2.2
      generalize r.decoded = x at hs h1
      cases hs with
      | str => exact (h1 _ rfl).1
      | none => exact (h1 _ rfl).1
      | float hx => exact Nat.le_trans (short_length hx) (by decide)⟩⟩
  generalize (readFile (.text s) output legs).res = res at hf
  generalize (readFile (.text s) output legs).out = out at hf h
  induction hf with
  | done => cases h
  | line h1 t ih =>
    rcases List.mem_append.1 h with h | h
    · exact line (hn _ (by simp)) h1 h
    · exact ih (fun l hl => hn l (by simp [hl])) h
  | stop h1 => exact line (hn _ (by simp)) h1 h

end

/-! ## Examples -/

section
attribute [local instance] Py.Tables.cpython311

/-- the width of a text of ASCII characters is its length: the hypothesis about the screen can be met -/
example : AtMostDouble fun s => s.length := fun s => by constructor <;> push_cast <;> omega

/-- four characters can say a lot: the course `9e99` is shown with 101 characters -/
example : (match (runDec .f026 (py!"9e99") ⟨py!"PI", py!"S"⟩ legTypeDesc).res with
    | .ok (.str s) => decide (s.length = 101)
    | _ => false) = true := by decide +kernel

/-- the table of an airport -/
example : (match stdoutText ⟨fun s => s.length, Py.Tables.printable311, false⟩
      (readFile (.text Sample.airport) true legTypeDesc).out with
    | some w => decide (1000 ≤ w.length ∧ w.length ≤ 2780 * 132)
    | none => false) = true := by decide +kernel

end

end Arinc
