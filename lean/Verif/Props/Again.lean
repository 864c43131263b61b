import Verif.Props.Stdout
/-!
# C110: what was written contains no records
-/
namespace Arinc
open Py Spec Spec.Std

/-! ## lines of the text -/

/-- a complaint in one line, or a table without carriage returns -/
def Modest (e : Event) : Prop :=
  Notice (fun c => c ≠ 10 ∧ c ≠ 13) e ∨ ∃ rows, e = .table rows ∧ Readable rows ∧ EventOver (· ≠ 13) e

/-- a line that begins like a complaint or a line of a table -/
def Dull (l : Str) : Prop := NoEOL l ∧ ∃ c u, l = c :: u ∧ c ∈ [85, 86, 82, 102, 69, 43, 124]

theorem rule_dull (ws : List ℤ) : Dull (tableRule ws) := by
  refine ⟨fun x h => ?_, 43, _, rfl, by decide⟩
  simp only [tableRule, List.mem_append, List.mem_flatMap, List.mem_replicate] at h
  rcases h with h | ⟨p, hp, ⟨_, h⟩ | h⟩
  · simp at h; omega
  · omega
  · simp at h; omega

theorem line_dull {width : Str → ℤ} {ws : List ℤ} {cells : List Str} (h : ∀ c ∈ cells, NoEOL c) :
    Dull (tableLine width ws cells) := by
  refine ⟨fun x hx => ?_, 124, _, rfl, by decide⟩
  simp only [tableLine, List.mem_append, List.mem_flatMap] at hx
  rcases hx with hx | ⟨p, hp, (hx | hx) | hx⟩
  · simp at hx; omega
  · simp at hx; omega
  · simp only [justify, List.mem_append, List.mem_replicate] at hx
    rcases hx with hx | ⟨_, rfl⟩
    · exact h p.2 (List.of_mem_zip hp).2 x hx
    · decide
  · simp at hx; omega

theorem row_dull {width : Str → ℤ} {ws : List ℤ} {cells : List Str} (h : ∀ c ∈ cells, Over (· ≠ 13) c) :
    ∀ l ∈ tableRow width ws cells, Dull l := by
  intro l hl
  simp only [tableRow, List.mem_map] at hl
  obtain ⟨y, _, rfl⟩ := hl
  refine line_dull fun c hc => ?_
  obtain ⟨d, hd, rfl⟩ := List.mem_map.1 hc
  intro x hx
  cases he : (linesOf d)[y]? with
  | none => rw [he] at hx; cases hx
  | some m =>
    rw [he] at hx
    have hm := List.mem_of_getElem? he
    obtain ⟨h1, h2⟩ := joined_mem (linesOf_joined d) m hm
    exact ⟨fun e => h1 (e ▸ hx), h d hd x (h2 x hx)⟩

theorem table_dull {width : Str → ℤ} {rows : List (List Str)} (h : ∀ r ∈ rows, ∀ c ∈ r, Over (· ≠ 13) c) :
    ∃ p, Joined p (tableString width tableHead rows) ∧ ∀ l ∈ p, Dull l := by
  unfold tableString
  simp only
  generalize columnWidths width tableHead rows = ws
  have key : ∀ l ∈ tableRule ws :: tableLine width ws tableHead :: tableRule ws ::
      (rows.flatMap (tableRow width ws) ++ [tableRule ws]), Dull l := by
    intro l hl
    simp only [List.mem_cons, List.mem_append, List.mem_flatMap, List.not_mem_nil, or_false] at hl
    rcases hl with rfl | rfl | rfl | ⟨r, hr, hl⟩ | rfl
    · exact rule_dull _
    · exact line_dull (by unfold NoEOL; decide)
    · exact rule_dull _
    · exact row_dull (h r hr) l hl
    · exact rule_dull _
  exact ⟨_, joinLF_joined (by simp) fun l hl h10 => ((key l hl).1 10 h10).1 rfl, key⟩

theorem cells_over {rows : List Row} (hr : Readable rows) (ho : EventOver (· ≠ 13) (.table rows)) :
    ∃ cells, rows.mapM Row.cells = some cells ∧ ∀ r ∈ cells, ∀ c ∈ r, Over (· ≠ 13) c := by
  have hP : ∀ c, Plain c → c ≠ 13 := fun c hc => by unfold Plain at hc; omega
  induction rows with
  | nil => exact ⟨[], by simp, by simp⟩
  | cons r rows ih =>
    obtain ⟨cells, h1, h2⟩ := ih (fun r h => hr r (by simp [h])) fun r h => ho r (by simp [h])
    obtain ⟨o1, o2, o3⟩ := ho r (by simp)
    obtain ⟨t, ht, hrow⟩ := hr r (by simp)
    refine ⟨[r.field, r.value, t] :: cells, by rw [List.mapM_cons, hrow, h1]; rfl, ?_⟩
    intro x hx
    rcases List.mem_cons.1 hx with rfl | hx
    · intro c hc
      simp only [List.mem_cons, List.not_mem_nil, or_false] at hc
      rcases hc with rfl | rfl | rfl
      · exact o1
      · exact o2
      · exact over_shown hP ho (.cell (by simp) ht)
    · exact h2 x hx

theorem modest_text {sc : Screen} {e : Event} (h : Modest e) :
    ∃ t p, e.text sc = some t ∧ Joined p t ∧ ∀ l ∈ p, Dull l := by
  rcases h with h | ⟨rows, rfl, hr, ho⟩
  · have hP : HasPrintable (fun c => c ≠ 10 ∧ c ≠ 13) := fun c hc => by omega
    obtain ⟨t, ht, hov, c, u, rfl, hc⟩ := notice_text hP (sc := sc) h
    refine ⟨_, [c :: u], ht, .one fun h10 => (hov 10 h10).1 rfl, fun l hl => ?_⟩
    rw [List.mem_singleton] at hl
    subst hl
    exact ⟨hov, c, u, rfl, by simp at hc ⊢; omega⟩
  · obtain ⟨cells, h1, h2⟩ := cells_over hr ho
    obtain ⟨p, h3, h4⟩ := table_dull (width := sc.width) h2
    exact ⟨_, p, by simp only [Event.text, shownTable, h1]; rfl, h3, h4⟩

theorem modest_written {sc : Screen} {out : List Event} (h : ∀ e ∈ out, Modest e) :
    ∃ t ls, stdoutText sc out = some t ∧ Lines t ls ∧ ∀ l ∈ ls, Dull l := by
  have key : ∃ ts, ∃ ls : List Str, out.mapM (Event.text sc) = some ts ∧ ts.flatMap (· ++ [10]) = ls.flatMap (· ++ [10]) ∧
      ∀ l ∈ ls, Dull l := by
    induction out with
    | nil => exact ⟨[], [], by simp, rfl, by simp⟩
    | cons e out ih =>
      obtain ⟨ts, ls, h1, h2, h3⟩ := ih fun e he => h e (by simp [he])
      obtain ⟨t, p, g1, g2, g3⟩ := modest_text (sc := sc) (h e (by simp))
      refine ⟨t :: ts, p ++ ls, by rw [List.mapM_cons, g1, h1]; rfl, ?_, fun l hl => ?_⟩
      · rw [List.flatMap_cons, List.flatMap_append, joined_lines g2, h2]
      · rcases List.mem_append.1 hl with hl | hl
        · exact g3 l hl
        · exact h3 l hl
  obtain ⟨ts, ls, h1, h2, h3⟩ := key
  refine ⟨_, ls, by rw [stdoutText, h1]; rfl, ?_, h3⟩
  have := lines_terminated (eol := [10]) (.inl rfl) (ls := ls) (fun l hl => (h3 l hl).1) noEOL_nil
  show Lines (ts.flatMap (· ++ [10])) ls
  rw [h2]
  simpa [terminated] using this

section
variable [PyUnicode]

/-! ## what is printed -/

theorem parse_modest {l : Str} (hl : NoEOL l) (output : Bool) {legs : Legs} (hg : Grown legs) :
    ∀ e ∈ (parse l output legs).out, Modest e := by
  have hP : HasPrintable (fun c => c ≠ 10 ∧ c ≠ 13) := fun c hc => by omega
  have ho : ∀ e ∈ (parse l output legs).out, EventOver (· ≠ 13) e :=
    lineDoes_over (fun c hc => by unfold Plain at hc; omega) (fun c hc => (hl c hc).2) (lineDoes_parse l output hg)
  have hr := fun rows (h : .table rows ∈ (parse l output legs).out) => C87_parse l output hg h
  have hn := read_notice hP (r := Record.new) (line := l) hl
  rcases parse_cases l output legs with ⟨e, h1, h2, h3⟩ | ⟨h1, h2⟩ | ⟨ha, _, _, _, h3⟩
  · rw [h3]; exact fun e he => .inl (hn e he)
  · rw [h2]; exact fun e he => .inl (hn e he)
  · intro e he
    have hoe := ho e he
    have hre := hr
    rw [h3] at he hre
    rcases List.mem_append.1 he with he | he
    · exact .inl (hn e he)
    · obtain ⟨t, k, fs, hi⟩ := read_isLine ha
      have hraw : Over (fun c => c ≠ 10 ∧ c ≠ 13) (Record.new.read l).obj.raw := by
        rw [(C75_read hi).1]
        exact over_padded hl hi.padded
      have hid : Over (fun c => c ≠ 10 ∧ c ≠ 13) (Record.new.read l).obj.ident := by
        rw [(C75_read hi).2.1]
        have : ∀ k ∈ supported, ∀ c ∈ k, 32 ≤ c ∧ c ≤ 126 := by decide +kernel
        refine fun c hc => hP c (this k ?_ c hc)
        cases hi.section_ with
        | byPair h => exact h
        | bySplit _ h => exact h
      have hfs : FieldsOver (fun c => c ≠ 10 ∧ c ≠ 13) (Record.new.read l).obj :=
        read_over hl fun f hf => by cases hf
      have hnot := decodeRows_notice hP (rec := (Record.new.read l).obj.info) (fs := (Record.new.read l).obj.fields)
        (legs := legs) hfs hid hraw
      unfold Record.decode at he hre
      simp only at he hre
      cases hres : (decodeRows (Record.new.read l).obj.info (Record.new.read l).obj.fields legs).res with
      | error x => rw [hres] at he; exact .inl (hnot e he)
      | ok rows =>
        rw [hres] at he hre
        cases output with
        | false => exact .inl (hnot e he)
        | true =>
          rcases List.mem_append.1 he with he | he
          · exact .inl (hnot e he)
          · simp only [List.mem_singleton] at he
            subst he
            exact .inr ⟨rows, rfl, hre rows (by simp), hoe⟩

theorem lines_modest {ls : List Str} (h : ∀ l ∈ ls, NoEOL l) (output : Bool) {legs : Legs} (hg : Grown legs) :
    ∀ e ∈ (parseLines output ls legs).out, Modest e := by
  induction ls generalizing legs with
  | nil => intro e he; cases he
  | cons l ls ih =>
    have hq := parse_modest (h l (by simp)) output hg
    have hg' := (parse_legs l output hg).2.2
    simp only [parseLines]
    split
    · exact hq
    · intro e he
      rcases List.mem_append.1 he with he | he
      · exact hq e he
      · exact ih (fun l hl => h l (by simp [hl])) hg' e he

theorem file_modest (f : FileObj) (output : Bool) {legs : Legs} (hg : Grown legs) :
    ∀ e ∈ (readFile f output legs).out, Modest e := by
  cases f with
  | text s =>
    obtain ⟨ls, hs⟩ := lines_exist s
    rw [readFile_lines hs]
    exact lines_modest (lines_noEOL hs) output hg
  | _ => intro e he; cases he

theorem files_modest (fs : List FileObj) {legs : Legs} (hg : Grown legs) : ∀ e ∈ (readFiles fs legs).out, Modest e := by
  induction fs generalizing legs with
  | nil => intro e he; cases he
  | cons f fs ih =>
    have hq := file_modest f true hg
    have hg' := (readFile_legs f true hg).2.2
    simp only [readFiles]
    split
    · exact hq
    · intro e he
      rcases List.mem_append.1 he with he | he
      · exact hq e he
      · exact ih hg' e he

/-! ## reading it again -/

theorem dull_read {l : Str} (h : Dull l) (r : Record) : r.read l = ⟨.ok false, r, []⟩ := by
  obtain ⟨_, c, u, rfl, hc⟩ := h
  have : ∀ c ∈ [85, 86, 82, 102, 69, 43, 124], isSpace c = false ∧ c ≠ 83 ∧ c ≠ 84 := by decide
  exact not_record (this c hc).1 (this c hc).2 r

theorem dull_again {t : Str} {ls : List Str} (h : Lines t ls) (hd : ∀ l ∈ ls, Dull l) :
    (∀ (output : Bool) (legs : Legs), readFile (.text t) output legs = ⟨.ok (), [], legs⟩) ∧
    ∀ filters : Filters, search (.text t) filters = (.ok (), [.summary 0 filters false]) := by
  refine ⟨fun output legs => ?_, fun filters => ?_⟩
  · rw [readFile_lines h]
    clear h
    induction ls with
    | nil => rfl
    | cons l ls ih =>
      have hp : parse l output legs = ⟨.ok false, [], legs⟩ := by unfold parse; rw [dull_read (hd l (by simp))]
      simp only [parseLines, hp, ih (fun x hx => hd x (by simp [hx])), List.append_nil]
  · rw [search_lines h]
    clear h
    generalize hn : (0 : ℕ) = n
    have : (false : Bool) = (n != 0) := by subst hn; rfl
    rw [this]
    clear hn this
    induction ls with
    | nil => rfl
    | cons l ls ih =>
      simp only [searchLines, dull_read (hd l (by simp)), ih (fun x hx => hd x (by simp [hx]))]
      rfl

/-- C110: Whatever file `read_file` is given, also if it raises an exception: what it wrote to standard output contains no
    records. Read as a file it prints nothing, and a search finds nothing in it. -/
theorem C110_read_file (f : FileObj) (output : Bool) {legs : Legs} (hg : Grown legs) (sc : Screen) :
    ∃ written, stdoutText sc (readFile f output legs).out = some written ∧
      (∀ (output' : Bool) (legs' : Legs), readFile (.text written) output' legs' = ⟨.ok (), [], legs'⟩) ∧
      ∀ filters : Filters, search (.text written) filters = (.ok (), [.summary 0 filters false]) := by
  obtain ⟨t, ls, h1, h2, h3⟩ := modest_written (sc := sc) (file_modest f output hg)
  exact ⟨t, h1, dull_again h2 h3⟩

/-- C110: The same is true of `read_folder`. -/
theorem C110_read_folder (entries : Option (List FileObj)) {legs : Legs} (hg : Grown legs) (sc : Screen) :
    ∃ written, stdoutText sc (readFolder entries legs).out = some written ∧
      (∀ (output' : Bool) (legs' : Legs), readFile (.text written) output' legs' = ⟨.ok (), [], legs'⟩) ∧
      ∀ filters : Filters, search (.text written) filters = (.ok (), [.summary 0 filters false]) := by
  have hq : ∀ e ∈ (readFolder entries legs).out, Modest e := by
    cases entries with
    | none => intro e he; cases he
    | some fs => exact files_modest fs hg
  obtain ⟨t, ls, h1, h2, h3⟩ := modest_written (sc := sc) hq
  exact ⟨t, h1, dull_again h2 h3⟩

/-! ## what is written tells what was printed -/

omit [PyUnicode] in
/-- a complaint, or a table of printable texts -/
def Told (e : Event) : Prop :=
  Notice (fun c => 32 ≤ c ∧ c ≤ 126) e ∨ ∃ rows, ∃ ts : List Line3, e = .table rows ∧
    rows.mapM Row.cells = some (ts.map cells3) ∧ ∀ t ∈ ts, Sound t ∧ plainName t.name = true

omit [PyUnicode] in
theorem told_clear {e : Event} (h : Told e) : Clear e := by
  rcases h with h | ⟨rows, ts, h1, h2, h3⟩
  · exact .inl h
  · exact .inr ⟨rows, ts, h1, h2, fun t ht => (h3 t ht).1⟩

omit [PyUnicode] in
theorem told_rows {rows rows' : List Row} (h : Told (.table rows)) (h' : Told (.table rows')) {width : Str → ℤ}
    (hw : AsciiWidth width) (he : shownTable width rows = shownTable width rows') :
    rows.map (fun r => (r.field, r.value)) = rows'.map fun r => (r.field, r.value) := by
  rcases h with h | ⟨_, ts, h1, h2, h3⟩
  · exact h.elim
  rcases h' with h' | ⟨_, ts', h1', h2', h3'⟩
  · exact h'.elim
  cases h1; cases h1'
  obtain ⟨a, b, c, d, -⟩ := drawn_string hw fun t ht => (h3 t ht).1
  obtain ⟨a', b', c', d', -⟩ := drawn_string hw fun t ht => (h3' t ht).1
  have e : tableString width tableHead (ts.map cells3) = tableString width tableHead (ts'.map cells3) := by
    rw [shownTable, shownTable, h2, h2'] at he
    exact Option.some.inj he
  rw [← e] at d'
  have hs := drawn_same (fun t ht => (h3 t ht).1) (fun t ht => (h3' t ht).1) d d'
  have cells : ∀ {rows : List Row} {ts : List Line3}, rows.mapM Row.cells = some (ts.map cells3) →
      rows.map (fun r => (r.field, r.value)) = ts.map fun t => (t.name, t.value) := by
    intro rows ts h
    induction rows generalizing ts with
    | nil => cases ts with
      | nil => rfl
      | cons t ts => simp at h
    | cons r rows ih =>
      simp only [List.mapM_cons, Option.bind_eq_bind, Option.bind_eq_some_iff, Option.pure_def, Option.some.injEq] at h
      obtain ⟨c, hc, cs, hcs, h⟩ := h
      cases ts with
      | nil => cases h
      | cons t ts =>
        simp only [List.map_cons, List.cons.injEq] at h
        obtain ⟨x, hx, hx'⟩ := Option.map_eq_some_iff.1 hc
        rw [← hx'] at h
        have i := ih (h.2 ▸ hcs)
        simp only [cells3, List.cons.injEq] at h
        simp only [List.map_cons, i, h.1.1, h.1.2.1]
  rw [cells h2, cells h2']
  clear d d' e he h2 h2'
  induction hs with
  | nil => rfl
  | @cons t t' ts ts' hrow hrows ih =>
    have i := ih (fun t ht => h3 t (by simp [ht])) (fun t ht => h3' t (by simp [ht]))
    rw [List.map_cons, List.map_cons, i, hrow.value,
      same_plainName hrow.name (h3 t (by simp)).2 (h3' t' (by simp)).2]

theorem parse_told {l : Str} (hp : Printable l) (output : Bool) {legs : Legs} (hg : Grown legs) :
    ∀ e ∈ (parse l output legs).out, Told e := by
  have hn := read_notice (P := fun c => 32 ≤ c ∧ c ≤ 126) (fun _ h => h) (r := Record.new) (line := l) hp
  have hone : OneLine l := ⟨l, hp, .inl rfl⟩
  rcases parse_cases l output legs with ⟨e, h1, h2, h3⟩ | ⟨h1, h2⟩ | ⟨ha, _, _, _, h3⟩
  · rw [h3]; exact fun e he => .inl (hn e he)
  · rw [h2]; exact fun e he => .inl (hn e he)
  · intro e he
    rw [h3] at he
    rcases List.mem_append.1 he with he | he
    · exact .inl (hn e he)
    · obtain ⟨t, k, fs, hi⟩ := read_isLine ha
      obtain ⟨hrec, hfs⟩ := read_plain ha hone
      have hraw : Over (fun c => 32 ≤ c ∧ c ≤ 126) (Record.new.read l).obj.raw := by
        rw [(C75_read hi).1]
        exact over_padded hp hi.padded
      have hid : Over (fun c => 32 ≤ c ∧ c ≤ 126) (Record.new.read l).obj.ident := by
        rw [(C75_read hi).2.1]
        have : ∀ k ∈ supported, ∀ c ∈ k, 32 ≤ c ∧ c ≤ 126 := by decide +kernel
        refine fun c hc => this k ?_ c hc
        cases hi.section_ with
        | byPair h => exact h
        | bySplit _ h => exact h
      have hnot := decodeRows_notice (P := fun c => 32 ≤ c ∧ c ≤ 126) (fun _ h => h)
        (rec := (Record.new.read l).obj.info) (fs := (Record.new.read l).obj.fields) (legs := legs)
        (fun f hf => (hfs f hf).2) hid hraw
      have htx := fun rows hd => decode_texts ha hone output hg (rows := rows) hd
      unfold Record.decode at he htx
      simp only at he htx
      cases hres : (decodeRows (Record.new.read l).obj.info (Record.new.read l).obj.fields legs).res with
      | error x => rw [hres] at he; exact .inl (hnot e he)
      | ok rows =>
        rw [hres] at he htx
        cases output with
        | false => exact .inl (hnot e he)
        | true =>
          rcases List.mem_append.1 he with he | he
          · exact .inl (hnot e he)
          · simp only [List.mem_singleton] at he
            obtain ⟨ts, _, g2, g3, g4⟩ := htx rows rfl
            refine .inr ⟨rows, ts, he, g2, fun t ht => ⟨g3 t ht, ?_⟩⟩
            obtain ⟨f, hf, h1, _⟩ := forall₂_right g4 t ht
            rw [h1]
            exact (hfs f hf).1

theorem lines_told {ls : List Str} (h : ∀ l ∈ ls, Printable l) (output : Bool) {legs : Legs} (hg : Grown legs) :
    ∀ e ∈ (parseLines output ls legs).out, Told e := by
  induction ls generalizing legs with
  | nil => intro e he; cases he
  | cons l ls ih =>
    have hq := parse_told (h l (by simp)) output hg
    have hg' := (parse_legs l output hg).2.2
    simp only [parseLines]
    split
    · exact hq
    · intro e he
      rcases List.mem_append.1 he with he | he
      · exact hq e he
      · exact ih (fun l hl => h l (by simp [hl])) hg' e he

theorem files_told {fs : List FileObj} (h : ∀ s, .text s ∈ fs → ∀ ls, Lines s ls → ∀ l ∈ ls, Printable l) {legs : Legs}
    (hg : Grown legs) : ∀ e ∈ (readFiles fs legs).out, Told e := by
  induction fs generalizing legs with
  | nil => intro e he; cases he
  | cons f fs ih =>
    have hq : ∀ e ∈ (readFile f true legs).out, Told e := by
      cases f with
      | text s =>
        obtain ⟨ls, hs⟩ := lines_exist s
        rw [readFile_lines hs]
        exact lines_told (h s (by simp) ls hs) true hg
      | _ => intro e he; cases he
    have hg' := (readFile_legs f true hg).2.2
    simp only [readFiles]
    split
    · exact hq
    · intro e he
      rcases List.mem_append.1 he with he | he
      · exact hq e he
      · exact ih (fun s hs => h s (by simp [hs])) hg' e he

omit [PyUnicode] in
theorem told_same {sc : Screen} (hw : AsciiWidth sc.width) {out out' : List Event} (h : ∀ e ∈ out, Told e)
    (h' : ∀ e ∈ out', Told e) (he : stdoutText sc out = stdoutText sc out') :
    out.map (Event.text sc) = out'.map (Event.text sc) ∧
    (tables out).map (fun rows => rows.map fun r => (r.field, r.value)) =
      (tables out').map fun rows => rows.map fun r => (r.field, r.value) := by
  obtain ⟨e1, e2⟩ := clear_same hw (fun e he => told_clear (h e he)) (fun e he => told_clear (h' e he)) he
  refine ⟨e1, ?_⟩
  clear he
  induction out generalizing out' with
  | nil => cases out' with
    | nil => rfl
    | cons => cases e1
  | cons e out ih =>
    cases out' with
    | nil => cases e1
    | cons e' out' =>
      simp only [List.map_cons, List.cons.injEq] at e1 e2
      have i := ih (fun e he => h e (by simp [he])) (fun e he => h' e (by simp [he])) e1.2 e2.2
      have ht := h e (by simp)
      have ht' := h' e' (by simp)
      cases e <;> cases e' <;> first
        | exact i
        | (have := told_rows ht ht' hw e1.1
           simp only [tables, List.filterMap_cons, List.map_cons] at i ⊢
           rw [this, i])
        | cases e2.1

/-- C107: What `read_file` wrote tells what it printed, text by text, and all the field names and values in the tables,
    for files of printable characters; also if it raised an exception. -/
theorem C107_any_outcome {s s' : Str} {ls ls' : List Str} (h : Lines s ls) (h' : Lines s' ls')
    (hp : ∀ l ∈ ls, Printable l) (hp' : ∀ l ∈ ls', Printable l) (output output' : Bool) {legs legs' : Legs}
    (hl : Grown legs) (hl' : Grown legs') {sc : Screen} (hw : AsciiWidth sc.width)
    (he : stdoutText sc (readFile (.text s) output legs).out = stdoutText sc (readFile (.text s') output' legs').out) :
    (readFile (.text s) output legs).out.map (Event.text sc) = (readFile (.text s') output' legs').out.map (Event.text sc) ∧
    (tables (readFile (.text s) output legs).out).map (fun rows => rows.map fun r => (r.field, r.value)) =
      (tables (readFile (.text s') output' legs').out).map fun rows => rows.map fun r => (r.field, r.value) := by
  rw [readFile_lines h, readFile_lines h'] at *
  exact told_same hw (lines_told hp output hl) (lines_told hp' output' hl') he

/-- C107: and so does what `read_folder` wrote. -/
theorem C107_folder {fs fs' : List FileObj}
    (hp : ∀ s, .text s ∈ fs → ∀ ls, Lines s ls → ∀ l ∈ ls, Printable l)
    (hp' : ∀ s, .text s ∈ fs' → ∀ ls, Lines s ls → ∀ l ∈ ls, Printable l) {legs legs' : Legs}
    (hl : Grown legs) (hl' : Grown legs') {sc : Screen} (hw : AsciiWidth sc.width)
    (he : stdoutText sc (readFolder (some fs) legs).out = stdoutText sc (readFolder (some fs') legs').out) :
    (readFolder (some fs) legs).out.map (Event.text sc) = (readFolder (some fs') legs').out.map (Event.text sc) ∧
    (tables (readFolder (some fs) legs).out).map (fun rows => rows.map fun r => (r.field, r.value)) =
      (tables (readFolder (some fs') legs').out).map fun rows => rows.map fun r => (r.field, r.value) :=
  told_same hw (files_told hp hl) (files_told hp' hl') he

end

/-! ## Examples -/

section
attribute [local instance] Py.Tables.cpython311

/-- something is written: the table of one record and three lines about another -/
example : (stdoutText (plainScreen false) (readFile (.text (fileOf [Sample.airport, Sample.airportBadCont])) true
      legTypeDesc).out).map (fun t => decide (2000 < t.length)) = some true ∧
    (readFile (.text (fileOf [Sample.airport, Sample.airportBadCont])) true legTypeDesc).out.length = 4 := by
  decide +kernel

/-- and the file itself does contain a record -/
example : (search (.text (fileOf [Sample.airport])) (.str (py!"SEATTLE"))).2 =
    [.line Sample.airport, .summary 1 (.str (py!"SEATTLE")) true] := by decide +kernel

/-- hypotheses of `C107_any_outcome` are met by a file whose second record raises an exception -/
example : Lines (fileOf [Sample.airport, Sample.vhfBadFreq]) [Sample.airport, Sample.vhfBadFreq] ∧
    (∀ l ∈ [Sample.airport, Sample.vhfBadFreq], Printable l) ∧
    (readFile (.text (fileOf [Sample.airport, Sample.vhfBadFreq])) true legTypeDesc).res = .error .systemExit ∧
    (tables (readFile (.text (fileOf [Sample.airport, Sample.vhfBadFreq])) true legTypeDesc).out).length = 1 := by
  refine ⟨?_, by unfold Printable; decide +kernel, by decide +kernel, by decide +kernel⟩
  have := lines_terminated (eol := [10]) (.inl rfl) (ls := [Sample.airport, Sample.vhfBadFreq])
    (by unfold NoEOL; decide +kernel) noEOL_nil
  simpa [fileOf] using this

end
end Arinc
