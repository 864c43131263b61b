import Verif.Lemmas.Lines
import Verif.Props.Meaning
import Verif.Props.Parse
import Verif.Props.Json
import Verif.Props.Files
/-!
# C75, C76: from the text of a line to what is shown

Which lines are accepted and what is shown for them, in terms of the line alone: `IsLine` and `shownFor` of
`Spec/Meaning.lean`.
-/
namespace Arinc
open Py Spec Spec.Std

section
variable [PyUnicode]

/-! ## C75 -/

/-- C75: `read` returns `True` exactly for the lines that are records with fields. -/
theorem C75_accepted_iff (r : Record) (line : Str) :
    (r.read line).res = .ok true ↔ ∃ (t k : Str) (fs : List StdField), IsLine r.continuation line t k fs :=
  ⟨read_isLine, fun ⟨_, _, _, h⟩ => by obtain ⟨d, hr, _⟩ := isLine_read h; rw [hr]⟩

/-- C75: and what it leaves in the object: the record's text, its section, whether it is a primary record,
    and its fields, whatever the object held before. Nothing is printed. -/
theorem C75_read {r : Record} {line t k : Str} {fs : List StdField} (h : IsLine r.continuation line t k fs) :
    (r.read line).obj.raw = t ∧ (r.read line).obj.ident = k ∧
    (r.read line).obj.primary = isPrimary r.continuation t k ∧
    (r.read line).obj.fields = fs.map (fun f => ⟨f.name, pick line f.shown.1, f.shown.2⟩) ∧
    (r.read line).out = [] := by
  obtain ⟨d, hr, hf, hs⟩ := isLine_read h
  rw [hr]
  exact ⟨hs, rfl, enter_isPrimary hf hs, rfl, rfl⟩

/-- C75: a line is one record only. -/
theorem C75_unique {before line t₁ t₂ k₁ k₂ : Str} {fs₁ fs₂ : List StdField}
    (h₁ : IsLine before line t₁ k₁ fs₁) (h₂ : IsLine before line t₂ k₂ fs₂) :
    t₁ = t₂ ∧ k₁ = k₂ ∧ fs₁ = fs₂ := by
  have ht : t₁ = t₂ := by
    rw [← isRecord_strip h₁.padded h₁.shape, ← isRecord_strip h₂.padded h₂.shape]
  have hk : k₁ = k₂ := by
    have := resolve_iff.2 h₁.section_
    rw [resolve_iff.2 h₂.section_] at this
    exact (Option.some.inj this).symm
  exact ⟨ht, hk, by rw [h₁.fields, h₂.fields, ht, hk]⟩

/-! ## C76 -/

/-- the rows of the table for what is shown -/
def RowsFor : List (Str × Str × Reading) → List Row → Prop
  | [], [] => True
  | (n, v, x) :: xs, row :: rows =>
    (∃ y, x.value = .ok y ∧ row = ⟨n, py!"'" ++ v ++ py!"'", y⟩) ∧ RowsFor xs rows
  | _, _ => False

theorem rowsFor_get {xs : List (Str × Str × Reading)} {rows : List Row} (h : RowsFor xs rows) :
    rows.length = xs.length ∧ ∀ (i : Nat) (n v : Str) (x : Reading), xs[i]? = some (n, v, x) →
      ∃ y, x.value = .ok y ∧ rows[i]? = some ⟨n, py!"'" ++ v ++ py!"'", y⟩ := by
  induction xs generalizing rows with
  | nil => cases rows with
    | nil => exact ⟨rfl, fun i _ _ _ h => by simp at h⟩
    | cons _ _ => exact h.elim
  | cons e xs ih => cases rows with
    | nil => exact h.elim
    | cons row rows =>
      obtain ⟨⟨y, hy, rfl⟩, h⟩ := h
      obtain ⟨h1, h2⟩ := ih h
      refine ⟨by simp [h1], fun i n v x hi => ?_⟩
      cases i with
      | zero => cases hi; exact ⟨y, hy, rfl⟩
      | succ i => exact h2 i n v x hi

theorem decodeRows_shown {info : RecInfo} {line : Str} (ha : Ascii line) {fs : List StdField}
    (hi : ∀ f ∈ fs, ∀ n, f.shown.2 = .ident n → n ∈ identityFns)
    {xs : List (Str × Str × Reading)} (hs : shownFor info.ident line fs = some xs) {legs : Legs}
    (hl : Grown legs) : ∃ rows, RowsFor xs rows ∧
      (decodeRows info (fs.map fun f => ⟨f.name, pick line f.shown.1, f.shown.2⟩) legs).res = .ok rows ∧
      (decodeRows info (fs.map fun f => ⟨f.name, pick line f.shown.1, f.shown.2⟩) legs).out = [] := by
  induction fs generalizing xs legs with
  | nil =>
    simp only [shownFor, List.mapM_nil] at hs
    cases hs
    exact ⟨[], trivial, rfl, rfl⟩
  | cons f fs ih =>
    simp only [shownFor, List.mapM_cons] at hs
    cases hx : meaning info.ident f.shown.2 (pick line f.shown.1) with
    | none => rw [hx] at hs; cases hs
    | some x =>
      rw [hx] at hs
      cases hr : shownFor info.ident line fs with
      | none => simp only [shownFor] at hr; rw [hr] at hs; cases hs
      | some xs' =>
        have hr' := hr
        simp only [shownFor] at hr
        rw [hr] at hs
        cases hs
        obtain ⟨h1, h2⟩ := C74_meaning f.shown.2 (pick line f.shown.1) info hl
          (fun c hc => ha c (mem_of_mem_pick hc)) (hi f (by simp)) hx
        obtain ⟨y, hy⟩ := value_ok x
        obtain ⟨_, _, hg⟩ := runDec_legs f.shown.2 (pick line f.shown.1) info hl
        obtain ⟨rows, i1, i2, i3⟩ := ih (fun f hf => hi f (by simp [hf])) hr' hg
        rw [hy] at h1
        refine ⟨⟨f.name, py!"'" ++ pick line f.shown.1 ++ py!"'", y⟩ :: rows, ⟨⟨y, hy, rfl⟩, i1⟩, ?_, ?_⟩
        · simp only [List.map_cons, decodeRows, h1, i2]; rfl
        · simp only [List.map_cons, decodeRows, h1, h2, i3]; rfl

theorem isLine_ident {r : Record} {line t k : Str} {fs : List StdField} (h : IsLine r.continuation line t k fs) :
    ∀ f ∈ fs, ∀ n, f.shown.2 = .ident n → n ∈ identityFns := by
  intro f hf n hn
  have hacc := (C75_accepted_iff r line).2 ⟨_, _, _, h⟩
  have hm : (⟨f.name, pick line f.shown.1, f.shown.2⟩ : Field) ∈ (r.read line).obj.fields := by
    rw [(C75_read h).2.2.2.1]; exact List.mem_map.2 ⟨f, hf, rfl⟩
  obtain ⟨k, d, l, ha⟩ := accepted hacc
  obtain ⟨s, hs, _, he, _⟩ := accepted_width ha hm
  have hw : widthOK s.dec s.slice.columns.length = true := by
    have := List.all_eq_true.1 width_ok _ (lookup_mem ha.lookup)
    exact List.all_eq_true.1 (List.all_eq_true.1 this l ha.mem) s hs
  rw [← he] at hw
  simp only at hw
  rw [hn] at hw
  simpa [widthOK] using hw

/-- C76: `Record.decode` after reading such a line: the table shows each field's name, its columns between
    quotes and its meaning, in the order of the list, and nothing else is printed. -/
theorem C76_decode {r : Record} {line t k : Str} {fs : List StdField} (h : IsLine r.continuation line t k fs)
    (ha : Ascii line) {xs : List (Str × Str × Reading)} (hs : shownFor k line fs = some xs)
    (output : Bool) {legs : Legs} (hl : Grown legs) :
    ∃ rows, ((r.read line).obj.decode output legs).res = .ok rows ∧
      ((r.read line).obj.decode output legs).out = (if output then [.table rows] else []) ∧
      rows.length = xs.length ∧
      ∀ (i : Nat) (n v : Str) (x : Reading), xs[i]? = some (n, v, x) →
        ∃ y, x.value = .ok y ∧ rows[i]? = some ⟨n, py!"'" ++ v ++ py!"'", y⟩ := by
  obtain ⟨_, hk, _, hf, _⟩ := C75_read h
  have hk' : (r.read line).obj.info.ident = k := hk
  obtain ⟨rows, h1, h2, h3⟩ := decodeRows_shown (info := (r.read line).obj.info) ha (isLine_ident h)
    (by rw [hk']; exact hs) hl
  refine ⟨rows, ?_, ?_, rowsFor_get h1⟩
  · unfold Record.decode
    simp only [hf, h2]
  · unfold Record.decode
    simp only [hf, h2, h3]
    rfl

/-- C76: `parse` of such a line returns `True` and prints that table and nothing else. -/
theorem C76_parse {line t k : Str} {fs : List StdField} (h : IsLine [] line t k fs) (ha : Ascii line)
    {xs : List (Str × Str × Reading)} (hs : shownFor k line fs = some xs) (output : Bool) {legs : Legs}
    (hl : Grown legs) :
    ∃ rows, (parse line output legs).res = .ok true ∧
      (parse line output legs).out = (if output then [.table rows] else []) ∧
      rows.length = xs.length ∧
      ∀ (i : Nat) (n v : Str) (x : Reading), xs[i]? = some (n, v, x) →
        ∃ y, x.value = .ok y ∧ rows[i]? = some ⟨n, py!"'" ++ v ++ py!"'", y⟩ := by
  have h' : IsLine Record.new.continuation line t k fs := h
  have hacc := (C75_accepted_iff Record.new line).2 ⟨_, _, _, h'⟩
  obtain ⟨rows, h1, h2, h3⟩ := C76_decode h' ha hs output hl
  rcases parse_cases line output legs with ⟨e, hr, _⟩ | ⟨hr, _⟩ | ⟨_, _, hp, _, ho⟩
  · rw [hacc] at hr; cases hr
  · rw [hacc] at hr; cases hr
  · refine ⟨rows, hp.1 ⟨rows, h1⟩, ?_, h3⟩
    rw [ho, (C75_read h').2.2.2.2, h2]
    rfl

theorem rows_eq {xs : List (Str × Str × Reading)} {rows rows' : List Row} (hl : rows.length = xs.length)
    (h : ∀ (i : Nat) (n v : Str) (x : Reading), xs[i]? = some (n, v, x) →
      ∃ y, x.value = .ok y ∧ rows[i]? = some ⟨n, py!"'" ++ v ++ py!"'", y⟩)
    (h' : rows'.map (fun r => (r.field, r.value, (.ok r.decoded : Except Exc PyVal))) =
      xs.map (fun x => (x.1, py!"'" ++ x.2.1 ++ py!"'", x.2.2.value))) : rows = rows' := by
  have hl' : rows'.length = xs.length := by simpa using congrArg List.length h'
  apply List.ext_getElem? 
  intro i
  cases hx : xs[i]? with
  | none =>
    have := List.getElem?_eq_none_iff.1 hx
    rw [List.getElem?_eq_none (by omega), List.getElem?_eq_none (by omega)]
  | some e =>
    obtain ⟨n, v, x⟩ := e
    obtain ⟨y, hy, hr⟩ := h i n v x hx
    rw [hr]
    have := congrArg (·[i]?) h'
    simp only [List.getElem?_map, hx, Option.map_some] at this
    cases hr' : rows'[i]? with
    | none => rw [hr'] at this; cases this
    | some r =>
      rw [hr'] at this
      simp only [Option.map_some, Option.some.injEq, Prod.mk.injEq] at this
      obtain ⟨rfl, h2, h3⟩ := this
      rw [hy] at h3
      cases h3
      cases r
      simp only at h2
      rw [← h2]

/-- C76: `parse` of a line of ASCII characters for which there is a table prints that table. -/
theorem C76_table {line : Str} {rows : List Row} (h : TableFor line rows) (ha : Ascii line) (output : Bool)
    {legs : Legs} (hl : Grown legs) : (parse line output legs).res = .ok true ∧
      (parse line output legs).out = (if output then [.table rows] else []) := by
  obtain ⟨t, k, fs, xs, h1, h2, h3⟩ := h
  obtain ⟨rows', p1, p2, p3, p4⟩ := C76_parse h1 ha h2 output hl
  rw [← rows_eq p3 p4 h3]
  exact ⟨p1, p2⟩

theorem parse_false {l : Str} {o : Record} (h : Record.new.read l = ⟨.ok false, o, []⟩) (output : Bool)
    (legs : Legs) : parse l output legs = ⟨.ok false, [], legs⟩ := by
  unfold parse; rw [h]

/-- C76: there is a table if every field has a meaning. -/
theorem C76_table_exists {line t k : Str} {fs : List StdField} (h : IsLine [] line t k fs)
    {xs : List (Str × Str × Reading)} (hs : shownFor k line fs = some xs) : ∃ rows, TableFor line rows := by
  suffices ∃ rows : List Row, rows.map (fun r => (r.field, r.value, (.ok r.decoded : Except Exc PyVal))) =
      xs.map (fun x => (x.1, py!"'" ++ x.2.1 ++ py!"'", x.2.2.value)) from
    this.imp fun rows hr => ⟨t, k, fs, xs, h, hs, hr⟩
  clear hs
  induction xs with
  | nil => exact ⟨[], rfl⟩
  | cons x xs ih =>
    obtain ⟨rows, hr⟩ := ih
    obtain ⟨y, hy⟩ := value_ok x.2.2
    exact ⟨⟨x.1, py!"'" ++ x.2.1 ++ py!"'", y⟩ :: rows, by simp [hr, hy]⟩

/-- C76: `read_file` of a text of ASCII characters whose records all have a table prints these tables, in
    order, and nothing else. -/
theorem C76_file {s : Str} {ls : List Str} (h : Lines s ls) (ha : ∀ l ∈ ls, Ascii l) {rowss : List (List Row)}
    (ht : TablesFor ls rowss) {legs : Legs} (hl : Grown legs) :
    (readFile (.text s) true legs).res = .ok () ∧
    (readFile (.text s) true legs).out = rowss.map .table := by
  have key : (∀ l ∈ ls, ∀ e, (parse l true legTypeDesc).res ≠ .error e) ∧
      ls.flatMap (fun l => (parse l true legTypeDesc).out) = rowss.map .table := by
    clear h hl
    induction ht with
    | nil => exact ⟨by simp, rfl⟩
    | record h t ih =>
      obtain ⟨i1, i2⟩ := ih (fun l hl => ha l (by simp [hl]))
      obtain ⟨p1, p2⟩ := C76_table h (ha _ (by simp)) true grown_init
      refine ⟨fun l hl e => ?_, ?_⟩
      · rcases List.mem_cons.1 hl with rfl | hl
        · rw [p1]; exact fun h => by cases h
        · exact i1 l hl e
      · rw [List.flatMap_cons, p2, i2]; rfl
    | other h t ih =>
      obtain ⟨i1, i2⟩ := ih (fun l hl => ha l (by simp [hl]))
      obtain ⟨o, ho⟩ := parse_reject h
      have hq := parse_false ho true legTypeDesc
      refine ⟨fun l hl e => ?_, ?_⟩
      · rcases List.mem_cons.1 hl with rfl | hl
        · rw [hq]; exact fun h => by cases h
        · exact i1 l hl e
      · rw [List.flatMap_cons, hq, i2]; rfl
  obtain ⟨r1, r2⟩ := C29_all_lines s ls h true legs hl key.1
  exact ⟨r1, by rw [r2, key.2]⟩

theorem decodeRows_quiet {info : RecInfo} {fs : List Field} {legs : Legs} (hl : Grown legs) {rows : List Row}
    (h : (decodeRows info fs legs).res = .ok rows) (ho : (decodeRows info fs legs).out = []) :
    ∀ f ∈ fs, (∃ y, (runDec f.dec f.value info legTypeDesc).res = .ok y) ∧
      (runDec f.dec f.value info legTypeDesc).out = [] := by
  induction fs generalizing legs rows with
  | nil => intro f hf; cases hf
  | cons g fs ih =>
    obtain ⟨h1, h2, h3⟩ := runDec_legs g.dec g.value info hl
    simp only [decodeRows] at h ho
    cases hr : (runDec g.dec g.value info legs).res with
    | error e => rw [hr] at h; cases h
    | ok y =>
      simp only [hr] at h ho
      obtain ⟨ho1, ho2⟩ := List.append_eq_nil_iff.1 ho
      cases hd : (decodeRows info fs (runDec g.dec g.value info legs).legs).res with
      | error e => rw [hd] at h; cases h
      | ok rows' =>
        intro f hf
        rcases List.mem_cons.1 hf with rfl | hf
        · exact ⟨⟨y, by rw [← h1, hr]⟩, by rw [← h2, ho1]⟩
        · exact ih h3 hd ho2 f hf

omit [PyUnicode] in
theorem shownFor_some {k line : Str} {fs : List StdField}
    (h : ∀ f ∈ fs, ∃ x, meaning k f.shown.2 (pick line f.shown.1) = some x) :
    ∃ xs, shownFor k line fs = some xs := by
  induction fs with
  | nil => exact ⟨[], rfl⟩
  | cons f fs ih =>
    obtain ⟨xs, hxs⟩ := ih (fun f hf => h f (by simp [hf]))
    obtain ⟨x, hx⟩ := h f (by simp)
    refine ⟨(f.name, pick line f.shown.1, x) :: xs, ?_⟩
    simp only [shownFor] at hxs ⊢
    rw [List.mapM_cons, hx, hxs]
    rfl

/-- C76: conversely, a record of ASCII characters (without numbers written in unusual ways) for which `parse`
    prints a table and nothing else has a table in the sense of the specification. -/
theorem C76_iff {line t k : Str} {fs : List StdField} (h : IsLine [] line t k fs) (ha : Ascii line)
    (hu : ∀ f ∈ fs, ¬ Unusual f.shown.2 (pick line f.shown.1)) {legs : Legs} (hl : Grown legs) :
    (∃ xs, shownFor k line fs = some xs) ↔
      ∃ rows, (parse line true legs).res = .ok true ∧ (parse line true legs).out = [.table rows] := by
  have h' : IsLine Record.new.continuation line t k fs := h
  have hacc := (C75_accepted_iff Record.new line).2 ⟨_, _, _, h'⟩
  obtain ⟨_, hk, _, hf, hro⟩ := C75_read h'
  constructor
  · rintro ⟨xs, hs⟩
    obtain ⟨rows, h1, h2, _⟩ := C76_parse h ha hs true hl
    exact ⟨rows, h1, h2⟩
  · rintro ⟨rows, h1, h2⟩
    rcases parse_cases line true legs with ⟨e, hr, _⟩ | ⟨hr, _⟩ | ⟨_, _, hp, _, ho⟩
    · rw [hacc] at hr; cases hr
    · rw [hacc] at hr; cases hr
    · obtain ⟨rows', hd⟩ := hp.2 h1
      rw [h2, hro] at ho
      unfold Record.decode at hd ho
      simp only at hd ho
      cases hr : (decodeRows (Record.new.read line).obj.info (Record.new.read line).obj.fields legs).res with
      | error e => rw [hr] at hd; cases hd
      | ok rs =>
        rw [hr] at ho
        simp only [if_true, List.nil_append] at ho
        have hnil : (decodeRows (Record.new.read line).obj.info (Record.new.read line).obj.fields legs).out = [] := by
          have := congrArg List.length ho
          simp only [List.length_append, List.length_cons, List.length_nil] at this
          exact List.length_eq_zero_iff.1 (by omega)
        have hq := decodeRows_quiet hl hr hnil
        refine shownFor_some fun f hfm => ?_
        have hm : (⟨f.name, pick line f.shown.1, f.shown.2⟩ : Field) ∈ (Record.new.read line).obj.fields := by
          rw [hf]; exact List.mem_map.2 ⟨f, hfm, rfl⟩
        have := (C74_iff f.shown.2 (pick line f.shown.1) (Record.new.read line).obj.info grown_init
          (fun c hc => ha c (mem_of_mem_pick hc)) (C74_widths _ _ hacc _ hm) (hu f hfm)).2 (hq _ hm)
        have hki : (Record.new.read line).obj.info.ident = k := hk
        rwa [hki] at this

end

/-! ## Non-vacuity -/

section
attribute [local instance] Py.Tables.cpython311

theorem airport_isLine : IsLine [] Sample.airport Sample.airport (py!"PA") (fieldsOf (py!"PA") true (py!"1")) where
  padded := padded_self _
  shape := isRecord_of (by decide +kernel) (by decide +kernel) (by decide +kernel)
  section_ := .bySplit (by decide +kernel) (by decide +kernel)
  continuation := by
    intro i hi
    have : contColumn (py!"PA") = some 21 := by decide +kernel
    rw [this] at hi
    cases hi
    decide +kernel
  fields := by decide +kernel
  listed := by decide +kernel

/-- C76 (hypotheses are met): every field of the airport has a meaning -/
example : ∃ xs, shownFor (py!"PA") Sample.airport (fieldsOf (py!"PA") true (py!"1")) = some xs ∧ xs.length = 28 ∧
    (py!"Speed Limit Altitude", py!"10000", .text (py!"10000 ft")) ∈ xs ∧
    (py!"Magnetic Variation", py!"E0199", .text (py!"199 E")) ∈ xs := by
  refine ⟨_, rfl, ?_⟩
  decide +kernel

example : Ascii Sample.airport := by unfold Ascii; decide +kernel

/-- C76 (hypotheses are met): a file with an airport and a blank line -/
example : ∃ rowss, TablesFor [Sample.airport, py!"  ", Sample.airport] rowss ∧ rowss.length = 2 ∧
    Lines (Sample.airport ++ 10 :: (py!"  " ++ 10 :: Sample.airport)) [Sample.airport, py!"  ", Sample.airport] := by
  obtain ⟨rows, h⟩ := C76_table_exists airport_isLine (xs := _) rfl
  refine ⟨_, .record h (.other (C31_blank_line _ (by unfold AllSpace; decide +kernel)) (.record h .nil)), rfl, ?_⟩
  exact .lf (by decide +kernel) (.lf (by decide +kernel) (.last (by decide +kernel) (by decide +kernel)))

end
end Arinc
