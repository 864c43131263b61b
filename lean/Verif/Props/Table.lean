import Verif.Lemmas.Table
import Verif.Props.Output
/-!
# C106: the table that `decode` returns
-/
namespace Arinc
open Py Spec Spec.Std

/-- C106: No text is wider than its column, whatever the width of a text is taken to be. (Nothing is cut or wrapped.) -/
theorem C106_no_wrap (width : Str → ℤ) {rows : List Row} {cells : List (List Str)} (h : rows.mapM Row.cells = some cells) :
    ∀ r ∈ tableHead :: cells, ∀ (j : ℕ) (c l : Str) (w : ℤ), r[j]? = some c → l ∈ linesOf c →
      (columnWidths width tableHead cells)[j]? = some w → width l ≤ w := by
  obtain ⟨ts, rfl⟩ : ∃ ts : List Line3, cells = ts.map cells3 := by
    clear width
    induction rows generalizing cells with
    | nil => simp at h; exact ⟨[], by simp [h]⟩
    | cons r rows ih =>
      simp only [List.mapM_cons, Option.bind_eq_bind, Option.bind_eq_some_iff, Option.pure_def, Option.some.injEq] at h
      obtain ⟨c, hc, cs, hcs, rfl⟩ := h
      obtain ⟨ts, rfl⟩ := ih hcs
      unfold Row.cells at hc
      obtain ⟨s, _, rfl⟩ := Option.map_eq_some_iff.1 hc
      exact ⟨⟨r.field, r.value, s⟩ :: ts, rfl⟩
  intro r hr j c l w hc hl hw
  simp only [tableHead, columnWidths_three] at hw
  have key : ∃ t : Line3, r = cells3 t ∧ (t = ⟨py!"Field", py!"Value", py!"Decoded"⟩ ∨ t ∈ ts) := by
    rcases List.mem_cons.1 hr with rfl | hr
    · exact ⟨_, rfl, Or.inl rfl⟩
    · obtain ⟨t, ht, rfl⟩ := List.mem_map.1 hr
      exact ⟨t, rfl, Or.inr ht⟩
  obtain ⟨t, rfl, ht⟩ := key
  have mem : ∀ (f : Line3 → Str), f t ∈ f ⟨py!"Field", py!"Value", py!"Decoded"⟩ :: ts.map f := by
    intro f
    rcases ht with rfl | ht
    · simp
    · exact List.mem_cons_of_mem _ (List.mem_map.2 ⟨t, ht, rfl⟩)
  match j with
  | 0 =>
    simp [cells3] at hc hw
    subst hc hw
    exact columnWidth_le width _ _ _ (mem (·.name)) l hl
  | 1 =>
    simp [cells3] at hc hw
    subst hc hw
    exact columnWidth_le width _ _ _ (mem (·.value)) l hl
  | 2 =>
    simp [cells3] at hc hw
    subst hc hw
    exact columnWidth_le width _ _ _ (mem (·.decoded)) l hl
  | j + 3 => simp [cells3] at hc

/-- C106: All lines of a table have the same length. -/
theorem C106_rectangle {a b c : ℕ} {rows : List Line3} {t : Str} (h : Drawn a b c rows t) :
    ∃ ls, Joined ls t ∧ ∀ l ∈ ls, l.length = a + b + c + 10 := by
  have rule : ∀ {l : Str}, IsRule a b c l → l.length = a + b + c + 10 := by
    intro l hl; rw [hl]; simp; omega
  have holds : ∀ {x y z l : Str}, Holds a b c x y z l → l.length = a + b + c + 10 := by
    intro x y z l ⟨_, _, _, ⟨_, _, h1⟩, ⟨_, _, h2⟩, ⟨_, _, h3⟩, e⟩
    rw [e]; simp [h1, h2, h3]; omega
  have row : ∀ {r : Line3} {ls : List Str}, RowLines a b c r ls → ∀ l ∈ ls, l.length = a + b + c + 10 := by
    intro r ls h
    cases h with
    | @mk d l ds ls hd hl hs =>
      intro m hm
      rcases List.mem_cons.1 hm with rfl | hm
      · exact holds hl
      · clear hd hl
        induction hs with
        | nil => cases hm
        | cons h t ih =>
          rcases List.mem_cons.1 hm with rfl | hm
          · exact holds h
          · exact ih (List.mem_cons_of_mem _ hm) hm
  cases h with
  | @mk rl head _ body hr hh hb ht =>
    refine ⟨_, ht, fun l hl => ?_⟩
    simp only [List.mem_cons, List.mem_append, List.not_mem_nil, or_false, List.mem_flatten] at hl
    rcases hl with rfl | rfl | rfl | ⟨ls, hls, hl⟩ | rfl
    · exact rule hr
    · exact holds hh
    · exact rule hr
    · clear ht
      induction hb with
      | nil => cases hls
      | cons h t ih =>
        rcases List.mem_cons.1 hls with rfl | hls
        · exact row h l hl
        · exact ih hls
    · exact rule hr

/-- C106: Two tables with the same text show the same rows: the same raw values, and the same names and lines of decoded
    values but for blanks at the end. -/
theorem C106_same {a b c a' b' c' : ℕ} {rows rows' : List Line3} {t : Str} (hs : ∀ r ∈ rows, Sound r)
    (hs' : ∀ r ∈ rows', Sound r) (h : Drawn a b c rows t) (h' : Drawn a' b' c' rows' t) :
    List.Forall₂ SameRow rows rows' := drawn_same hs hs' h h'

/-- the names of the fields: printable, and no blank at the end, but for one (CruisingTables.py:23) -/
def plainName (s : Str) : Bool :=
  s.all (fun c => 32 ≤ c && c ≤ 126) &&
    (s.getLast? != some 32 && s != py!"Cruise Level To" || s == py!"Cruise Level To ")

theorem names_printable : kindsOf.all (fun e => (e.2.2.1.map (·.2) ++ e.2.2.2.toList).all (fun fs =>
    fs.all fun f => plainName f.name)) = true := by decide +kernel

theorem same_name {s s' : Str} (h : SameButBlanks s s') (hs : s.getLast? ≠ some 32) (hs' : s'.getLast? ≠ some 32) :
    s = s' := by
  obtain ⟨m, n, h⟩ := h
  have h' := congrArg List.reverse h
  simp only [List.reverse_append, List.reverse_replicate] at h'
  have key : ∀ {m n : ℕ} {s s' : Str}, s.head? ≠ some 32 → s'.head? ≠ some 32 →
      List.replicate m 32 ++ s = List.replicate n 32 ++ s' → s = s' := by
    intro m
    induction m with
    | zero =>
      intro n s s' h1 h2 e
      cases n with
      | zero => simpa using e
      | succ n =>
        exfalso
        apply h1
        have : s = List.replicate (n + 1) 32 ++ s' := by simpa using e
        rw [this, List.replicate_succ]; rfl
    | succ m ih =>
      intro n s s' h1 h2 e
      cases n with
      | zero =>
        exfalso
        apply h2
        have : List.replicate (m + 1) 32 ++ s = s' := by simpa using e
        rw [← this, List.replicate_succ]; rfl
      | succ n =>
        simp only [List.replicate_succ, List.cons_append, List.cons.injEq, true_and] at e
        exact ih h1 h2 e
  have := key (by rwa [List.head?_reverse]) (by rwa [List.head?_reverse]) h'
  exact List.reverse_injective this

theorem same_plainName {s s' : Str} (h : SameButBlanks s s') (hs : plainName s = true) (hs' : plainName s' = true) :
    s = s' := by
  simp only [plainName, Bool.and_eq_true, Bool.or_eq_true, bne_iff_ne, ne_eq, beq_iff_eq] at hs hs'
  have one : ∀ {s : Str}, SameButBlanks (py!"Cruise Level To ") s → s.getLast? ≠ some 32 → s = py!"Cruise Level To" := by
    rintro s ⟨m, n, h⟩ hl
    exact (same_name (s := py!"Cruise Level To") ⟨m + 1, n, by
      rw [← h, List.replicate_succ]; rfl⟩ (by decide) hl).symm
  rcases hs.2 with ⟨h1, h2⟩ | h1 <;> rcases hs'.2 with ⟨h1', h2'⟩ | h1'
  · exact same_name h h1 h1'
  · rw [h1'] at h
    obtain ⟨m, n, h⟩ := h
    exact absurd (one ⟨n, m, h.symm⟩ h1) h2
  · rw [h1] at h
    exact absurd (one h h1') h2'
  · rw [h1, h1']

section
variable [PyUnicode]

omit [PyUnicode] in
theorem oneLine_plain {line : Str} (h : OneLine line) : Over Plain line := by
  obtain ⟨b, hb, rfl | rfl⟩ := h
  · exact fun c hc => Or.inr (hb c hc)
  · intro c hc
    rcases List.mem_append.1 hc with hc | hc
    · exact Or.inr (hb c hc)
    · simp at hc; exact Or.inl hc

theorem read_plain {r : Record} {line : Str} (h : (r.read line).res = .ok true) (hl : OneLine line) :
    RecOver Plain (r.read line).obj ∧ ∀ f ∈ (r.read line).obj.fields, plainName f.name = true ∧ Printable f.value := by
  obtain ⟨t, k, fs, hi⟩ := read_isLine h
  obtain ⟨h1, h2, _, h4, _⟩ := C75_read hi
  have hp := oneLine_plain hl
  have names : ∀ f ∈ (r.read line).obj.fields, plainName f.name = true := by
    intro f hf
    rw [h4] at hf
    obtain ⟨g, hg, rfl⟩ := List.mem_map.1 hf
    rw [hi.fields] at hg
    obtain ⟨e, he, l, hl, hg⟩ := fieldsOf_mem hg
    exact List.all_eq_true.1 (List.all_eq_true.1 (List.all_eq_true.1 names_printable e he) l hl) g hg
  have values : ∀ f ∈ (r.read line).obj.fields, Printable f.value := by
    intro f hf
    obtain ⟨k, d, l, ha⟩ := accepted h
    obtain ⟨s, hs, rfl, _, _⟩ := accepted_width ha hf
    have hc := (layout_columns ha.lookup ha.mem hs).2.1
    intro c hcc
    simp only [FieldSpec.field, pick, List.mem_flatMap, col, Option.mem_toList] at hcc
    obtain ⟨i, hi, hcc⟩ := hcc
    have hi := hc i hi
    obtain ⟨b, hb, rfl | rfl⟩ := hl
    · exact hb c (List.mem_of_getElem? hcc)
    · have hlen : 132 ≤ b.length := by
        have := ha.isRec
        rw [strip_append_space (by intro c hc; simp at hc; subst hc; decide)] at this
        exact length_line this
      rw [List.getElem?_append_left (by omega)] at hcc
      exact hb c (List.mem_of_getElem? hcc)
  refine ⟨⟨?_, ?_, fun f hf => ⟨?_, fun c hc => Or.inr (values f hf c hc)⟩⟩, fun f hf => ⟨names f hf, values f hf⟩⟩
  · rw [h2]; exact over_section (fun _ h => h) hi.section_
  · rw [h1]; exact over_padded hp hi.padded
  · intro c hc
    have := names f hf
    simp only [plainName, Bool.and_eq_true, List.all_eq_true, decide_eq_true_eq] at this
    exact Or.inr (this.1 c hc)

theorem decode_readable {r : Record} {line : Str} (h : (r.read line).res = .ok true) (output : Bool) {legs : Legs}
    (hl : Grown legs) {rows : List Row} (hr : ((r.read line).obj.decode output legs).res = .ok rows) : Readable rows := by
  obtain ⟨t, k, fs, hi⟩ := read_isLine h
  obtain ⟨_, _, _, h4, _⟩ := C75_read hi
  have hT := decodeRows_tells (info := (r.read line).obj.info) (isLine_width hi) hl
  rw [← h4] at hT
  unfold Record.decode at hr
  simp only at hr
  cases hd : (decodeRows (r.read line).obj.info (r.read line).obj.fields legs).res with
  | error e => rw [hd] at hr; cases hr
  | ok rs =>
    rw [hd] at hr hT
    cases hr
    exact tells_readable hT

theorem decodeRows_fields {rec : RecInfo} {fs : List Field} {legs : Legs} {rows : List Row}
    (h : (decodeRows rec fs legs).res = .ok rows) :
    List.Forall₂ (fun f r => r.field = f.name ∧ r.value = py!"'" ++ f.value ++ py!"'") fs rows := by
  induction fs generalizing legs rows with
  | nil => cases h; exact .nil
  | cons f fs ih =>
    simp only [decodeRows] at h
    cases hd : (runDec f.dec f.value rec legs).res with
    | error e => rw [hd] at h; cases h
    | ok v =>
      rw [hd] at h
      simp only at h
      cases hr : (decodeRows rec fs (runDec f.dec f.value rec legs).legs).res with
      | error e => rw [hr] at h; cases h
      | ok rs => rw [hr] at h; cases h; exact .cons ⟨rfl, rfl⟩ (ih hr)

/-- the texts of a table -/
theorem decode_texts {r : Record} {line : Str} (h : (r.read line).res = .ok true) (hl : OneLine line) (output : Bool)
    {legs : Legs} (hg : Grown legs) {rows : List Row} (hr : ((r.read line).obj.decode output legs).res = .ok rows) :
    ∃ ts, ShownAs rows ts ∧ rows.mapM Row.cells = some (ts.map cells3) ∧ (∀ t ∈ ts, Sound t) ∧
      List.Forall₂ (fun f t => t.name = f.name ∧ t.value = py!"'" ++ f.value ++ py!"'")
        (r.read line).obj.fields ts := by
  have h1 := decode_readable h output hg hr
  obtain ⟨h2, h3⟩ := read_plain h hl
  have hd : (decodeRows (r.read line).obj.info (r.read line).obj.fields legs).res = .ok rows := by
    unfold Record.decode at hr
    simp only at hr
    cases hd : (decodeRows (r.read line).obj.info (r.read line).obj.fields legs).res with
    | error e => rw [hd] at hr; cases hr
    | ok rs => rw [hd] at hr; exact hr
  have h4 := (decodeRows_over (P := Plain) (fun _ h => h) (rec := (r.read line).obj.info) h2.ident h2.raw h2.fields hg).2
    rows hd
  have h5 := decodeRows_fields hd
  clear hd hr h2
  generalize (r.read line).obj.fields = fs at *
  induction h5 with
  | nil => exact ⟨[], .nil, by simp, fun t ht => (by cases ht), .nil⟩
  | @cons f row fs rows hf hfs ih =>
    obtain ⟨ts, i1, i2, i3, i4⟩ := ih (fun r hr => h1 r (by simp [hr])) (fun r hr => h4 r (by simp [hr]))
      (fun f hf => h3 f (by simp [hf]))
    obtain ⟨s, hs, hc⟩ := h1 row (by simp)
    obtain ⟨hn, hv⟩ := h3 f (by simp)
    simp only [plainName, Bool.and_eq_true, List.all_eq_true, decide_eq_true_eq] at hn
    refine ⟨⟨row.field, row.value, s⟩ :: ts, .cons ⟨rfl, rfl, hs⟩ i1, ?_, ?_, .cons hf i4⟩
    · rw [List.mapM_cons, hc, i2]; rfl
    · intro t ht
      rcases List.mem_cons.1 ht with rfl | ht
      · refine ⟨?_, ⟨f.value, hv, hf.2⟩, ?_⟩
        · rw [hf.1]; exact hn.1
        · exact over_shown (P := Plain) (e := .table (row :: rows)) (fun _ h => h) h4 (.cell (by simp) hs)
      · exact i3 t ht

/-- C106: what `decode` returns, after a line of printable characters was read: a table with a header and the rows, in
    three columns, each as wide as its widest text. -/
theorem C106_table {r : Record} {line : Str} (h : (r.read line).res = .ok true) (hl : OneLine line) (output : Bool)
    {legs : Legs} (hg : Grown legs) {rows : List Row} (hr : ((r.read line).obj.decode output legs).res = .ok rows)
    {width : Str → ℤ} (hw : AsciiWidth width) :
    ∃ ts t a b c, ShownAs rows ts ∧ shownTable width rows = some t ∧ Drawn a b c ts t ∧
      Widest a (py!"Field" :: ts.map (·.name)) ∧ Widest b (py!"Value" :: ts.map (·.value)) ∧
      ∃ ds, (∀ l, l ∈ ds ↔ ∃ x ∈ ts, ∃ ls, Joined ls x.decoded ∧ l ∈ ls) ∧ Widest c (py!"Decoded" :: ds) := by
  obtain ⟨ts, h1, h2, h3, _⟩ := decode_texts h hl output hg hr
  obtain ⟨a, b, c, h4, h5, h6, h7⟩ := drawn_string hw h3
  refine ⟨ts, _, a, b, c, h1, by rw [shownTable, h2]; rfl, h4, h5, h6, _, fun l => ?_, h7⟩
  rw [List.mem_flatMap]
  constructor
  · exact fun ⟨x, hx, hl⟩ => ⟨x, hx, _, linesOf_joined _, hl⟩
  · rintro ⟨x, hx, ls, hls, hl⟩
    exact ⟨x, hx, by rwa [joined_inj (linesOf_joined _) hls]⟩

/-- C106: if the tables of two records have the same text, the records have the same fields with the same values, and the
    same decoded values but for blanks at the end of a line. -/
theorem C106_read_back {r r' : Record} {line line' : Str} (h : (r.read line).res = .ok true)
    (h' : (r'.read line').res = .ok true) (hl : OneLine line) (hl' : OneLine line') (output output' : Bool)
    {legs legs' : Legs} (hg : Grown legs) (hg' : Grown legs') {rows rows' : List Row}
    (hr : ((r.read line).obj.decode output legs).res = .ok rows)
    (hr' : ((r'.read line').obj.decode output' legs').res = .ok rows')
    {width : Str → ℤ} (hw : AsciiWidth width) (he : shownTable width rows = shownTable width rows') :
    (r.read line).obj.fields.map (fun f => (f.name, f.value)) =
      (r'.read line').obj.fields.map (fun f => (f.name, f.value)) ∧
    ∃ ts ts', ShownAs rows ts ∧ ShownAs rows' ts' ∧ List.Forall₂ SameRow ts ts' := by
  obtain ⟨ts, h1, h2, h3, h4⟩ := decode_texts h hl output hg hr
  obtain ⟨ts', h1', h2', h3', h4'⟩ := decode_texts h' hl' output' hg' hr'
  obtain ⟨a, b, c, d, -⟩ := drawn_string hw h3
  obtain ⟨a', b', c', d', -⟩ := drawn_string hw h3'
  have e : tableString width tableHead (ts.map cells3) = tableString width tableHead (ts'.map cells3) := by
    rw [shownTable, shownTable, h2, h2'] at he
    exact Option.some.inj he
  rw [← e] at d'
  have hs := drawn_same h3 h3' d d'
  refine ⟨?_, ts, ts', h1, h1', hs⟩
  obtain ⟨_, hn⟩ := read_plain h hl
  obtain ⟨_, hn'⟩ := read_plain h' hl'
  clear h1 h2 h3 h1' h2' h3' d d' e he hr hr' h h'
  generalize (r.read line).obj.fields = fs at *
  generalize (r'.read line').obj.fields = fs' at *
  induction hs generalizing fs fs' with
  | nil => cases h4; cases h4'; rfl
  | cons hrow hrows ih =>
    cases h4 with
    | @cons f _ fs _ a1 a2 =>
    cases h4' with
    | @cons f' _ fs' _ b1 b2 =>
      have i := ih fs a2 (fun f hf => hn f (by simp [hf])) fs' b2 (fun f hf => hn' f (by simp [hf]))
      have e1 : f.name = f'.name := by
        have := hrow.name
        rw [a1.1, b1.1] at this
        exact same_plainName this (hn f (by simp)).1 (hn' f' (by simp)).1
      have e2 : f.value = f'.value := by
        have := hrow.value
        rw [a1.2, b1.2] at this
        simpa using this
      simp only [List.map_cons, e1, e2, i]

end

/-! ## Examples -/

section
attribute [local instance] Py.Tables.cpython311

/-- every character one column -/
def asciiWidth (s : Str) : ℤ := s.length

example : AsciiWidth asciiWidth := fun _ _ => rfl

/-- the example of the README -/
example : OneLine Sample.airport ∧ (Record.new.read Sample.airport).res = .ok true :=
  ⟨⟨Sample.airport, by unfold Spec.Printable; decide +kernel, Or.inl rfl⟩, by decide +kernel⟩

example : (match ((Record.new.read Sample.airport).obj.decode false legTypeDesc).res with
    | .ok rows => (shownTable asciiWidth rows).map fun t => ((linesOf t).length, (linesOf t)[4]?, (linesOf t)[5]?)
    | .error _ => none) = some (32,
      some (py!"| Customer / Area Code            | 'USA'                            | United States of America       |"),
      some (py!"| Section Code                    | 'PA'                             | Airport Reference Point        |")) := by
  decide +kernel

/-- with and without the end of the line: the same table -/
example : OneLine (Sample.airport ++ [10]) ∧ (Record.new.read (Sample.airport ++ [10])).res = .ok true ∧
    (match ((Record.new.read Sample.airport).obj.decode false legTypeDesc).res,
      ((Record.new.read (Sample.airport ++ [10])).obj.decode true legTypeDesc).res with
    | .ok rows, .ok rows' => rows.length = 28 && shownTable asciiWidth rows == shownTable asciiWidth rows'
    | _, _ => false) = true :=
  ⟨⟨Sample.airport, by unfold Spec.Printable; decide +kernel, Or.inr rfl⟩, by decide +kernel⟩

/-- a decoded value of more than one line -/
example : tableString asciiWidth tableHead [[py!"A", py!"'1'", py!"x\ny\n"], [py!"B", py!"'2'", py!"z"]] =
    py!"+-------+-------+---------+\n| Field | Value | Decoded |\n+-------+-------+---------+\n" ++
    py!"| A     | '1'   | x       |\n|       |       | y       |\n|       |       |         |\n" ++
    py!"| B     | '2'   | z       |\n+-------+-------+---------+" := by decide +kernel

end
end Arinc
