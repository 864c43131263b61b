import Verif.Lemmas.Short
import Verif.Model.Cells
import Verif.Props.Total
/-!
# C87: `str(float)`, and the cells of any table
-/
namespace Arinc
open Py Spec Spec.Std

/-- C87: the text of every double is the shortest decimal that is rounded to it. -/
theorem C87_str {x : Dbl} (hx : Encoded x) (s : Str) : x.repr = some s ↔ ShortText x s := repr_iff hx

/-- C87: and there is exactly one. -/
theorem C87_one {x : Dbl} (hx : Encoded x) : ∃! s, ShortText x s := by
  obtain ⟨s, _, h⟩ := repr_short hx
  exact ⟨s, h, fun t ht => short_unique ht h⟩

/-- C87: No decimal with fewer digits is rounded to the double, and the last digit is not zero. -/
theorem C87_fewest {neg : Bool} {m : ℕ} {e : ℤ} (hm : m ≠ 0) {s : Str} (h : ShortText (.fin neg m e) s) :
    ∃ (n : ℕ) (k : ℤ) (u ds : Str), s = (if neg then py!"-" else []) ++ u ∧ Written n k u ∧
      Rounds neg (n * 10 ^ k) (.fin neg m e) ∧ n % 10 ≠ 0 ∧ Decimal ds n ∧
      ∀ (n' : ℕ) (k' : ℤ) (ds' : Str), Rounds neg (n' * 10 ^ k') (.fin neg m e) → Decimal ds' n' →
        ds.length ≤ ds'.length := by
  cases h with
  | zero => exact absurd rfl hm
  | @fin _ _ n _ k u _ back short near even hs =>
    refine ⟨n, k, u, _, rfl, hs, rounds_sign back, no_trailing_zero back short, natStr_decimal n, ?_⟩
    intro n' k' ds' hr hd'
    refine fewest_digits (k' := k') hm back short (natStr_decimal n) ?_ hd'
    cases hr with
    | fin hm he he' hn near even => exact .fin hm he he' hn near even

section
variable [PyUnicode]

/-- C87: `float(str(x)) = x`. -/
theorem C87_round_trip {x : Dbl} (hx : Encoded x) : ∃ s, x.repr = some s ∧ pyFloat s = .ok x := by
  obtain ⟨s, h1, h2⟩ := repr_short hx
  exact ⟨s, h1, pyFloat_iff.2 (short_back hx h2)⟩

/-- C87: different doubles have different texts. -/
theorem C87_injective {x y : Dbl} (hx : Encoded x) (hy : Encoded y) {s : Str} (h : ShortText x s)
    (h' : ShortText y s) : x = y := by
  have h1 := pyFloat_iff.2 (short_back hx h)
  rw [pyFloat_iff.2 (short_back hy h')] at h1
  cases h1; rfl

theorem floatThen_encoded {s : Str} {d : ℕ} {y : Dbl} (h : FloatThen s (QuotientFloat d) (.ok (.float y))) :
    Encoded y := by
  rcases h with ⟨x, p, _, ⟨z, hz, rfl⟩, h⟩ | ⟨_, h⟩
  · cases h; exact quotient_encoded hz
  · cases h

theorem floatThen_text {s : Str} {d k : ℕ} {u : Str} {y : Dbl}
    (h : FloatThen s (QuotientText d k u) (.ok (.float y))) : False := by
  rcases h with ⟨x, p, _, ⟨z, t, _, _, rfl⟩, h⟩ | ⟨_, h⟩ <;> cases h

theorem intThen_str {s : Str} {f : Int → Str} {y : Dbl}
    (h : IntThen s (fun i => .str (f i)) (.ok (.float y))) : False := by
  rcases h with ⟨i, _, h⟩ | ⟨_, h⟩ <;> cases h

omit [PyUnicode] in
theorem okIf_float {b : Bool} {x : PyVal} {y : Dbl} (h : Except.ok (.float y) = okIf b x) : x = .float y := by
  unfold okIf at h
  split at h <;> cases h
  rfl

/-- the `float`s in the table are doubles -/
theorem gives_encoded {k t : Str} {fn : DecFn} {v : Str} {y : Dbl} {out : List Event}
    (h : Gives k t fn v (.ok (.float y)) out) : Encoded y := by
  by_cases h34 : fn = .f034
  · subst h34
    simp only [Gives] at h
    split at h
    · cases h.1
    · split at h
      · exact (floatThen_text h.1).elim
      · cases h.1
  by_cases h65 : fn = .f065
  · subst h65
    simp only [Gives] at h
    split at h
    · cases h.1
    · rcases h with ⟨a, b, rest, m, s, _, _, _, h, _⟩ | ⟨_, h, _⟩ <;> cases h
  have hg : Gives k t fn v (.ok (.float y)) out = if classed fn = true then Result fn v (.ok (.float y)) ∧ out = []
      else match verdict k t fn v with
        | .shown x messages => Except.ok (PyVal.float y) = x.value ∧ out = messages
        | .raised e messages => Except.ok (PyVal.float y) = .error e ∧ out = messages := by
    cases fn <;> first | rfl | contradiction
  rw [hg] at h
  split at h
  · next hc =>
    have h := h.1
    clear hg
    cases fn <;> simp only [classed, Bool.false_eq_true] at hc <;> simp only [Result] at h
    all_goals repeat' split at h
    all_goals first
      | cases h; done
      | exact floatThen_encoded h
      | exact (floatThen_text h).elim
      | exact (intThen_str h).elim
      | (have h' := okIf_float h; cases h')
  · split at h
    · next x messages hv =>
      have h := h.1
      cases x with
      | text s => cases h
      | nothing => cases h
      | tenths n =>
        rw [value_tenths] at h
        cases h
        exact rounds_encoded (roundDbl_rounds (by omega))
    · cases h.1

/-- The cells of a table: the name, the value in quotes, and the text of the decoded value. -/
def Readable (rows : List Row) : Prop :=
  ∀ r ∈ rows, ∃ s, CellText r.decoded s ∧ r.cells = some [r.field, r.value, s]

omit [PyUnicode] in
theorem text_iff {p : PyVal} (hp : ∀ x, p = .float x → Encoded x) (s : Str) : p.text = some s ↔ CellText p s := by
  cases p with
  | str t => exact ⟨fun h => by cases h; exact .str, fun h => by cases h; rfl⟩
  | none => exact ⟨fun h => by cases h; exact .none, fun h => by cases h; rfl⟩
  | float x =>
    exact ⟨fun h => .float ((repr_iff (hp x rfl)).1 h), fun h => by cases h with | float h => exact (repr_iff (hp x rfl)).2 h⟩

omit [PyUnicode] in
theorem text_exists {p : PyVal} (hp : ∀ x, p = .float x → Encoded x) : ∃ s, p.text = some s := by
  cases p with
  | str t => exact ⟨_, rfl⟩
  | none => exact ⟨_, rfl⟩
  | float x =>
    obtain ⟨s, h, _⟩ := repr_short (hp x rfl)
    exact ⟨s, h⟩

theorem tells_readable {k t line : Str} {fs : List StdField} {rows : List Row} {out : List Event}
    (h : Tells k t line fs (.ok rows) out) : Readable rows := by
  generalize hr : Except.ok rows = r at h
  induction h generalizing rows with
  | nil => cases hr; intro r hr; cases hr
  | raised h => cases hr
  | @shown f fs x rows' out out' h r ih =>
    cases hr
    intro row hrow
    rcases List.mem_cons.1 hrow with e | hrow
    · subst e
      have hp : ∀ y, x = .float y → Encoded y := fun y e => gives_encoded (e ▸ h)
      obtain ⟨s, hs⟩ := text_exists hp
      refine ⟨s, (text_iff hp s).1 hs, ?_⟩
      simp only [Row.cells, hs, Option.map_some]
    · exact ih rfl row hrow
  | later h r => cases hr

theorem tells_noTable {k t line : Str} {fs : List StdField} (hf : FateOf [] line (.record t k fs))
    {r : Except Exc (List Row)} {out : List Event} (h : Tells k t line fs r out) : NoTable out := by
  have hw := record_width hf
  have h' := decodeRows_tells (info := ⟨k, t⟩) hw grown_init
  rw [(tells_unique hw h h').2]
  exact decodeRows_noTable _ _ _

theorem lineDoes_readable {output : Bool} {line : Str} {res : Except Exc Bool} {out : List Event}
    (h : LineDoes output line res out) {rows : List Row} (hr : .table rows ∈ out) : Readable rows := by
  cases h with
  | shown hf ht =>
    rcases List.mem_append.1 hr with hr | hr
    · exact absurd hr (tells_noTable hf ht rows)
    · cases output
      · cases hr
      · simp only [if_true, List.mem_singleton, Event.table.injEq] at hr
        subst hr
        exact tells_readable ht
  | failed hf ht => exact absurd hr (tells_noTable hf ht rows)
  | @other f hf _ => cases f <;> simp [Fate.prints] at hr

theorem fileDoes_readable {output : Bool} {ls : List Str} {res : Except Exc Unit} {out : List Event}
    (h : FileDoes output ls res out) {rows : List Row} (hr : .table rows ∈ out) : Readable rows := by
  induction h with
  | done => cases hr
  | line h t ih =>
    rcases List.mem_append.1 hr with hr | hr
    · exact lineDoes_readable h hr
    · exact ih hr
  | stop h => exact lineDoes_readable h hr

theorem folderDoes_readable {fs : List FileObj} {res : Except Exc Unit} {out : List Event}
    (h : FolderDoes fs res out) {rows : List Row} (hr : .table rows ∈ out) : Readable rows := by
  induction h with
  | done => cases hr
  | file hs h t ih =>
    rcases List.mem_append.1 hr with hr | hr
    · exact fileDoes_readable h hr
    · exact ih hr
  | stop hs h => exact fileDoes_readable h hr
  | unopenable => cases hr
  | undecodable => cases hr

/-- C87: every table that `parse` prints, for any line, has these texts in its cells. -/
theorem C87_parse (line : Str) (output : Bool) {legs : Legs} (hl : Grown legs) {rows : List Row}
    (h : .table rows ∈ (parse line output legs).out) : Readable rows :=
  lineDoes_readable (lineDoes_parse line output hl) h

/-- C87: and so has every table that `read_file` prints. -/
theorem C87_read_file {s : Str} {ls : List Str} (hs : Lines s ls) (output : Bool) {legs : Legs} (hl : Grown legs)
    {rows : List Row} (h : .table rows ∈ (readFile (.text s) output legs).out) : Readable rows :=
  fileDoes_readable ((C86_read_file hs output hl _ _).1 ⟨rfl, rfl⟩) h

/-- C87: and every table that `read_folder` prints. -/
theorem C87_read_folder (fs : List FileObj) {legs : Legs} (hl : Grown legs) {rows : List Row}
    (h : .table rows ∈ (readFolder (some fs) legs).out) : Readable rows :=
  folderDoes_readable ((C86_read_folder fs hl _ _).1 ⟨rfl, rfl⟩) h

end

/-! ## Examples -/

section
attribute [local instance] Py.Tables.cpython311

/-- 0.1, the greatest double, and the smallest -/
example : Encoded (.fin false 7205759403792794 (-56)) ∧ Encoded (.fin false 9007199254740991 971) ∧
    Encoded (.fin true 1 (-1074)) := by
  simp only [Encoded]; decide +kernel

/-- their texts -/
example : ShortText (.fin false 7205759403792794 (-56)) (py!"0.1") :=
  (C87_str (by simp only [Encoded]; decide +kernel) _).1 (by decide +kernel)

example : ShortText (.fin false 9007199254740991 971) (py!"1.7976931348623157e+308") :=
  (C87_str (by simp only [Encoded]; decide +kernel) _).1 (by decide +kernel)

example : ShortText (.fin true 1 (-1074)) (py!"-5e-324") :=
  (C87_str (by simp only [Encoded]; decide +kernel) _).1 (by decide +kernel)

/-- with a point up to 10^16, and from 0.0001 on -/
example : (pyFloat (py!"9999999999999998")).toOption.bind Dbl.repr = some (py!"9999999999999998.0") ∧
    (pyFloat (py!"10000000000000000")).toOption.bind Dbl.repr = some (py!"1e+16") ∧
    (pyFloat (py!"0.0001")).toOption.bind Dbl.repr = some (py!"0.0001") ∧
    (pyFloat (py!"0.00001")).toOption.bind Dbl.repr = some (py!"1e-05") ∧
    (pyFloat (py!"-0")).toOption.bind Dbl.repr = some (py!"-0.0") := by decide +kernel

/-- a distance that is not a number of tenths in the usual form -/
example : (runDec .f269 (py!"1e17") ⟨[], []⟩ legTypeDesc).res.toOption.bind PyVal.text = some (py!"1e+16") := by
  decide +kernel

end

end Arinc
