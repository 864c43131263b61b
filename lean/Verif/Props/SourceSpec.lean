import Verif.Spec.SourceSpec
import Verif.Props.SourceApi
import Verif.Props.Fates
import Verif.Props.Fault
/-!
# C123: the source does what is specified

The theorems about the source (C121, C122) speak of the model; those about the model (C75 - C81) of the specification.
Here the two are put together: the source and the specification, with no model between them.
-/
namespace Arinc.Lang
open Py _root_.Spec

section
variable [PyUnicode]

/-! ## Lemmas -/

theorem answers_bool {r : Except Fault Bool} {res : Except Exc Bool} (h : r.mapError Fault.exc = res) :
    Answers .bool res (boolRes r) := by
  subst h
  cases r with
  | ok b => rfl
  | error e => exact ⟨e, rfl, rfl⟩

theorem answers_none {r : Except Fault Unit} {res : Except Exc Unit} (h : r.mapError Fault.exc = res) :
    Answers (fun _ => .none) res (noneRes r) := by
  subst h
  cases r with
  | ok b => rfl
  | error e => exact ⟨e, rfl, rfl⟩

/-- the table of leg types after any calls -/
theorem expected_grown (sc : Screen) : ∀ (cs : List ApiCall) {legs : Legs}, Grown legs → Grown (ApiCall.expected sc cs legs).2.2
  | [], _, h => h
  | c :: cs, legs, h => by
    refine expected_grown sc cs ?_
    cases c with
    | parse line o => exact (Arinc.parse_legs line _ h).2.2
    | readFile f o => exact (readFile_legs f _ h).2.2
    | readFolder p => exact (readFolder_legs p h).2.2
    | searchText f s => exact h
    | searchAll f s => exact h

/-- the state after any calls, and the next call -/
theorem next_call (sc : Screen) (n : Nat) (before : List ApiCall) (c : ApiCall) : ∃ legs, Grown legs ∧
    ∃ texts, (c.model sc legs).2.1.mapM (Event.text sc) = some texts ∧
      ((Src.library.env sc (n + 8)).call c.source.1 c.source.2 (ApiCall.run (Src.library.env sc (n + 8)) before imported).2).1 =
        (c.model sc legs).1 ∧
      ((Src.library.env sc (n + 8)).call c.source.1 c.source.2 (ApiCall.run (Src.library.env sc (n + 8)) before imported).2).2.out =
        (ApiCall.run (Src.library.env sc (n + 8)) before imported).2.out ++ texts := by
  obtain ⟨ts, -, h2⟩ := C122_session sc n before
  obtain ⟨us, g1, -, g3⟩ := api_call sc n c (ApiCall.expected sc before legTypeDesc).2.2
    (stAfter imported (ApiCall.expected sc before legTypeDesc).2.2 ts) rfl (after_records _ _ rfl) (after_legs _ _ _)
  refine ⟨_, expected_grown sc before grown_init, us, g1, ?_, ?_⟩
  · rw [h2, g3]
  · rw [h2, g3]; rfl

theorem file_output (p : Nat → Bool) (f : FileObj) (output : Bool) (legs : Legs) :
    (readFileF p f legs).mapError Fault.exc = (readFile f output legs).res := by
  unfold readFileF readFile
  cases f.readlines with
  | error e => rfl
  | ok ls =>
    simp only
    induction ls generalizing legs with
    | nil => rfl
    | cons l ls ih =>
      have h : (parseF p l legs).mapError Fault.exc = (parse l output legs).res := (C108_same p legs).2.2.1 l output
      have hl : (parse l true legs).legs = (parse l output legs).legs := (parse_legs l output legs).symm
      unfold parseLinesF parseLines
      simp only
      rw [← h]
      cases parseF p l legs with
      | error e => rfl
      | ok b =>
        show (parseLinesF p ls _).mapError Fault.exc = _
        rw [ih]
        first | rw [hl] | rfl
        first | done | rfl

/-! ## C123 -/

/-- C123, `parse`, after any calls: the specified result, and the specified things are printed. -/
theorem C123_parse (sc : Screen) (n : Nat) (before : List ApiCall) {line : Str} (ha : Ascii line) (hu : Usual line)
    (o : Option Val) {res : Except Exc Bool} {out : List Event} (h : LineRun (prints o) line res out) :
    Does sc (Src.library.env sc (n + 8)) before (py!"parse") (.str line :: o.toList) .bool res out := by
  obtain ⟨legs, hl, ts, h1, h2, h3⟩ := next_call sc n before (.parse line o)
  obtain ⟨g1, g2⟩ := (C79_parse ha hu (prints o) hl res out).2 h
  refine ⟨?_, ts, g2 ▸ h1, h3⟩
  rw [show (Src.library.env sc (n + 8)).call (py!"parse") (.str line :: o.toList) = (Src.library.env sc (n + 8)).call (ApiCall.parse line o).source.1 (ApiCall.parse line o).source.2 from rfl, h2]
  exact answers_bool (g1 ▸ (C108_same sc.printable legs).2.2.1 line (prints o))

/-- C123, `read_file`, after any calls. -/
theorem C123_read_file (sc : Screen) (n : Nat) (before : List ApiCall) {s : Str} {ls : List Str} (hs : Lines s ls)
    (ha : ∀ l ∈ ls, Ascii l) (hu : ∀ l ∈ ls, Usual l) (o : Option Val) {res : Except Exc Unit} {out : List Event}
    (h : FileRun (prints o) ls res out) :
    Does sc (Src.library.env sc (n + 8)) before (py!"read_file") (.file (.text s) :: o.toList) (fun _ => .none) res out := by
  obtain ⟨legs, hl, ts, h1, h2, h3⟩ := next_call sc n before (.readFile (.text s) o)
  obtain ⟨g1, g2⟩ := (C79_read_file hs ha hu (prints o) hl res out).2 h
  refine ⟨?_, ts, g2 ▸ h1, h3⟩
  rw [show (Src.library.env sc (n + 8)).call (py!"read_file") (.file (.text s) :: o.toList) = (Src.library.env sc (n + 8)).call (ApiCall.readFile (.text s) o).source.1 (ApiCall.readFile (.text s) o).source.2 from rfl, h2]
  exact answers_none (g1 ▸ file_output sc.printable (.text s) (prints o) legs)

/-- C123, `read_folder`, after any calls. -/
theorem C123_read_folder (sc : Screen) (n : Nat) (before : List ApiCall) {fs : List FileObj}
    (hf : ∀ s, .text s ∈ fs → ∀ ls, Lines s ls → ∀ l ∈ ls, Ascii l ∧ Usual l) {res : Except Exc Unit} {out : List Event}
    (h : FolderRun fs res out) :
    Does sc (Src.library.env sc (n + 8)) before (py!"read_folder") [.folder (some fs)] (fun _ => .none) res out := by
  obtain ⟨legs, hl, ts, h1, h2, h3⟩ := next_call sc n before (.readFolder (some fs))
  obtain ⟨g1, g2⟩ := (C79_read_folder hf hl res out).2 h
  refine ⟨?_, ts, g2 ▸ h1, h3⟩
  rw [show (Src.library.env sc (n + 8)).call (py!"read_folder") [.folder (some fs)] = (Src.library.env sc (n + 8)).call (ApiCall.readFolder (some fs)).source.1 (ApiCall.readFolder (some fs)).source.2 from rfl, h2]
  exact answers_none (g1 ▸ (C108_same sc.printable legs).2.2.2.2.1 (some fs))

/-- C123, `search` for a text or for a list of texts, after any calls, in a file with any characters. -/
theorem C123_search (sc : Screen) (n : Nat) (before : List ApiCall) {s : Str} {ls : List Str} (hs : Lines s ls) {filters : Filters}
    {v : Val} (hv : filtersVal filters = some v) {res : Except Exc Unit} {out : List Event} (h : SearchRun filters 0 ls res out) :
    Does sc (Src.library.env sc (n + 8)) before (py!"search") [.file (.text s), v] (fun _ => .none) res out := by
  have g := (C80_search hs filters res out).2 h
  have hp := (C108_same sc.printable legTypeDesc).2.2.2.2.2 (.text s) filters
  rw [g] at hp
  cases filters with
  | str t =>
    cases hv
    obtain ⟨legs, hl, ts, h1, h2, h3⟩ := next_call sc n before (.searchText (.text s) t)
    refine ⟨?_, ts, ?_, h3⟩
    · rw [show (Src.library.env sc (n + 8)).call (py!"search") [.file (.text s), .str t] = (Src.library.env sc (n + 8)).call (ApiCall.searchText (.text s) t).source.1 (ApiCall.searchText (.text s) t).source.2 from rfl, h2]
      exact answers_none hp
    · simp only [ApiCall.model, g] at h1; exact h1
  | list t =>
    cases hv
    obtain ⟨legs, hl, ts, h1, h2, h3⟩ := next_call sc n before (.searchAll (.text s) t)
    refine ⟨?_, ts, ?_, h3⟩
    · rw [show (Src.library.env sc (n + 8)).call (py!"search") [.file (.text s), .list (t.map .str)] = (Src.library.env sc (n + 8)).call (ApiCall.searchAll (.text s) t).source.1 (ApiCall.searchAll (.text s) t).source.2 from rfl, h2]
      exact answers_none hp
    · simp only [ApiCall.model, g] at h1; exact h1
  | other => cases hv

theorem parseF_legs (p : Nat → Bool) (line : Str) {legs : Legs} (hl : Grown legs) : parseF p line legs = parseF p line legTypeDesc := by
  have h : ∀ x, parseF p line legs = .error x ↔ parseF p line legTypeDesc = .error x := fun x => by
    rw [C108_message, C108_message]
  have g1 := (C108_same p legs).2.2.1 line true
  have g2 := (C108_same p legTypeDesc).2.2.1 line true
  rw [(Arinc.parse_legs line true hl).1, ← g2] at g1
  cases h1 : parseF p line legs with
  | error x => exact ((h x).1 h1).symm
  | ok b =>
    cases h2 : parseF p line legTypeDesc with
    | error x => rw [(h x).2 h2] at h1; cases h1
    | ok b' =>
      rw [h1, h2] at g1
      simpa [Except.mapError] using g1

theorem same_unit {a b : Except Fault Unit} (h : ∀ x, a = .error x ↔ b = .error x) : a = b := by
  cases ha : a with
  | error x => exact ((h x).1 ha).symm
  | ok u =>
    cases hb : b with
    | error x => rw [(h x).2 hb] at ha; cases ha
    | ok u' => rfl

theorem readFileF_legs (p : Nat → Bool) (f : FileObj) (legs : Legs) : readFileF p f legs = readFileF p f legTypeDesc := by
  cases f with
  | text s => exact same_unit fun x => by rw [C108_read_file, C108_read_file]
  | unopenable => rfl
  | undecodable => rfl

theorem readFolderF_legs (p : Nat → Bool) (fs : Option (List FileObj)) (legs : Legs) :
    readFolderF p fs legs = readFolderF p fs legTypeDesc := by
  cases fs with
  | none => rfl
  | some fs => exact same_unit fun x => by rw [C108_folder, C108_folder]

/-- the model of a call does not depend on what was looked up before -/
theorem model_legs (sc : Screen) (c : ApiCall) {legs : Legs} (hl : Grown legs) :
    (c.model sc legs).1 = (c.model sc legTypeDesc).1 ∧ (c.model sc legs).2.1 = (c.model sc legTypeDesc).2.1 := by
  cases c with
  | parse line o =>
    refine ⟨?_, (Arinc.parse_legs line _ hl).2.1⟩
    simp only [ApiCall.model, parseF_legs sc.printable line hl]
  | readFile f o =>
    refine ⟨?_, (readFile_legs f _ hl).2.1⟩
    simp only [ApiCall.model, readFileF_legs sc.printable f legs]
  | readFolder p =>
    refine ⟨?_, (readFolder_legs p hl).2.1⟩
    simp only [ApiCall.model, readFolderF_legs sc.printable p legs]
  | searchText f s => exact ⟨rfl, rfl⟩
  | searchAll f ss => exact ⟨rfl, rfl⟩

/-- C123: what a call returns, raises (with its message) and prints does not depend on the calls before it. -/
theorem C123_history (sc : Screen) (n : Nat) (before : List ApiCall) (c : ApiCall) :
    let E := Src.library.env sc (n + 8)
    let st := (ApiCall.run E before imported).2
    (E.call c.source.1 c.source.2 st).1 = (E.call c.source.1 c.source.2 imported).1 ∧
    (E.call c.source.1 c.source.2 st).2.out = st.out ++ (E.call c.source.1 c.source.2 imported).2.out := by
  obtain ⟨legs, hl, ts, h1, h2, h3⟩ := next_call sc n before c
  obtain ⟨legs', hl', ts', h1', h2', h3'⟩ := next_call sc n [] c
  obtain ⟨m1, m2⟩ := model_legs sc c hl
  obtain ⟨m1', m2'⟩ := model_legs sc c hl'
  simp only [ApiCall.run] at h2' h3'
  simp only
  rw [h2, h2', h3, h3', m1, m1']
  rw [m2] at h1
  rw [m2', h1] at h1'
  cases h1'
  exact ⟨rfl, rfl⟩

/-! ## A `Record` -/

/-- the next call on an object -/
theorem next_read (sc : Screen) (n : Nat) (before : List RecCall) (line : Str) : ∃ r : Record,
    (RecCall.run (Src.library.env sc (n + 5)) before imported (recordVal Record.new)).2.2 = recordVal r ∧
    ((Src.library.env sc (n + 5)).callMethod (py!"Record") (py!"read") (recordVal r) [.str line]
      (RecCall.run (Src.library.env sc (n + 5)) before imported (recordVal Record.new)).2.1).1 = boolRes (r.readF line) ∧
    ((Src.library.env sc (n + 5)).callMethod (py!"Record") (py!"read") (recordVal r) [.str line]
      (RecCall.run (Src.library.env sc (n + 5)) before imported (recordVal Record.new)).2.1).2.2 = recordVal (r.read line).obj := by
  obtain ⟨ts, -, h2⟩ := C121_record sc n before
  refine ⟨(RecCall.expected sc before Record.new legTypeDesc).2.2.1, by rw [h2], ?_⟩
  rw [h2]
  obtain ⟨us, -, g⟩ := call_read sc n (stAfter imported (RecCall.expected sc before Record.new legTypeDesc).2.2.2 ts) rfl (after_records _ _ rfl)
    (RecCall.expected sc before Record.new legTypeDesc).2.2.1 line
  simp only at g ⊢
  rw [g]
  exact ⟨rfl, rfl⟩

/-- C123, `read` of a `Record` on which any methods have been called: it returns `True` for exactly the lines that are
    records by the specification. (The continuation number that the object has from before counts for the kinds of
    records that have none: C16.) -/
theorem C123_read (sc : Screen) (n : Nat) (before : List RecCall) (line : Str) :
    let E := Src.library.env sc (n + 5)
    let s := RecCall.run E before imported (recordVal Record.new)
    ∃ c, attr (py!"continuation") s.2.2 = some (.str c) ∧
      ((E.callMethod (py!"Record") (py!"read") s.2.2 [.str line] s.2.1).1 = .ok (.bool true) ↔
        ∃ (t k : Str) (fs : List Std.StdField), IsLine c line t k fs) := by
  obtain ⟨r, h1, h2, -⟩ := next_read sc n before line
  refine ⟨r.continuation, by rw [h1]; rfl, ?_⟩
  rw [h1, h2, ← C75_accepted_iff r line]
  have hm := (C108_same sc.printable legTypeDesc).1 r line
  rw [← hm]
  cases r.readF line with
  | ok b => simp [boolRes, Except.mapError]
  | error e => simp [boolRes, Except.mapError]

/-- C123, and what it leaves in the object: the text of the record, its section, and its fields, each with the name, the
    columns and the decoder of the specification. -/
theorem C123_fields (sc : Screen) (n : Nat) (before : List RecCall) {line c t k : Str} {fs : List Std.StdField} :
    let E := Src.library.env sc (n + 5)
    let s := RecCall.run E before imported (recordVal Record.new)
    attr (py!"continuation") s.2.2 = some (.str c) → IsLine c line t k fs →
      let v := (E.callMethod (py!"Record") (py!"read") s.2.2 [.str line] s.2.1).2.2
      attr (py!"raw") v = some (.str t) ∧ attr (py!"ident") v = some (.str k) ∧
      attr (py!"fields") v = some (.list (fs.map fun f => .obj (py!"Field") [(py!"name", .str f.name),
        (py!"value", .str (pick line f.shown.1)), (py!"decode_fn", .fn (nameOf f.shown.2))])) := by
  obtain ⟨r, h1, -, h3⟩ := next_read sc n before line
  simp only
  rw [h1]
  intro hc h
  have : r.continuation = c := by
    have h' : attr (py!"continuation") (recordVal r) = some (.str r.continuation) := rfl
    rw [h'] at hc
    simpa using hc
  subst this
  obtain ⟨g1, g2, -, g4, -⟩ := C75_read h
  rw [h3]
  have e1 : attr (py!"raw") (recordVal (r.read line).obj) = some (.str (r.read line).obj.raw) := rfl
  have e2 : attr (py!"ident") (recordVal (r.read line).obj) = some (.str (r.read line).obj.ident) := rfl
  have e3 : attr (py!"fields") (recordVal (r.read line).obj) = some (.list ((r.read line).obj.fields.map fieldVal)) := rfl
  rw [e1, e2, e3, g1, g2, g4, List.map_map]
  exact ⟨rfl, rfl, rfl⟩

end

section
attribute [local instance] Py.Tables.cpython311

/-- C123 (hypotheses are met): the source of `parse`, after a search and a folder that does not exist, with the line in
    README.md: `True`, and a table of 28 rows is printed -/
example : ∃ rows, rows.length = 28 ∧ Does someScreen (Src.library.env someScreen 8) [.searchText .unopenable [], .readFolder none]
    (py!"parse") [.str Sample.airport] .bool (.ok true) [.table rows] := by
  have hu : Usual Sample.airport := airport_usual
  have ha : Ascii Sample.airport := by unfold Ascii; decide +kernel
  have hp := lineRun_parse ha hu true grown_init
  have h1 : (match (parse Sample.airport true legTypeDesc).res with | .ok b => b | .error _ => false) = true := by decide +kernel
  have h2 : (match (parse Sample.airport true legTypeDesc).out with | [.table rows] => rows.length | _ => 0) = 28 := by decide +kernel
  revert hp h1 h2
  generalize (parse Sample.airport true legTypeDesc).res = res
  generalize (parse Sample.airport true legTypeDesc).out = out
  intro hp h1 h2
  have e1 : res = .ok true := by
    cases res with
    | ok b => simp only at h1; rw [h1]
    | error e => cases h1
  have e2 : ∃ rows, out = [.table rows] ∧ rows.length = 28 := by
    split at h2
    · exact ⟨_, rfl, h2⟩
    · cases h2
  obtain ⟨rows, e2, e3⟩ := e2
  subst e1 e2
  exact ⟨rows, e3, C123_parse someScreen 0 _ ha hu none hp⟩

/-- C123 (hypotheses are met): a search by the source, from the specification -/
example : Does someScreen (Src.library.env someScreen 8) [] (py!"search")
    [.file (.text (Sample.airport ++ 10 :: py!"  ")), .str (py!"TACOMA")] (fun _ => .none) (.ok ())
    [.line Sample.airport, .summary 1 (.str (py!"TACOMA")) true] := by
  have hm : Matches (.str (py!"TACOMA")) Sample.airport := contains_iff.1 (by decide +kernel)
  have hs : Lines (Sample.airport ++ 10 :: py!"  ") [Sample.airport, py!"  "] :=
    .lf (by unfold NoEOL; decide +kernel) (.last (by unfold NoEOL; decide +kernel) (by decide))
  exact C123_search someScreen 0 [] hs rfl (.found airport_fate hm (.skip blank_fate rfl (.done 1)))

end
end Arinc.Lang
