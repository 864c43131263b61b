import Verif.Spec.SourceProgram
import Verif.Props.SourceSpec
import Verif.Props.Decode
/-!
# C124: programs with any number of objects, executed by the source
-/
namespace Arinc.Lang
open Py _root_.Spec

section
variable [PyUnicode]

/-! ## Lemmas -/

/-- the interpreter is in a state of the model -/
structure Matches (w : World) (s : Interp) : Prop where
  ok : w.OK
  objs : ∀ i, s.objs i = recordVal (w.objs i)
  known : ∀ i, ∀ f ∈ (w.objs i).fields, Known f.dec
  frozen : s.st.frozen = false
  records : find s.st.globals (py!"records") = some recordsVal
  legs : find s.st.globals (py!"LegTypeDesc") = some (legsVal w.legs)

theorem drop_same (a b : List Str) : (a ++ b).drop a.length = b := by simp

/-- a method of an object -/
theorem exec_method (sc : Screen) (n : Nat) {w : World} {s : Interp} (h : Matches w s) (i : Nat) (c : RecCall) :
    ∃ texts, (c.model sc (w.objs i) w.legs).2.1.mapM (Event.text sc) = some texts ∧
      s.method (Src.library.env sc (n + 8)) i c.source.1 c.source.2 =
        ((c.model sc (w.objs i) w.legs).1,
          ⟨stAfter s.st (c.model sc (w.objs i) w.legs).2.2.2 texts,
            fun j => if j = i then recordVal (c.model sc (w.objs i) w.legs).2.2.1 else s.objs j⟩) ∧
      (∀ f ∈ (c.model sc (w.objs i) w.legs).2.2.1.fields, Known f.dec) := by
  obtain ⟨ts, h1, h2, -, h4⟩ := rec_call sc (n + 3) c (w.objs i) (h.known i) w.legs s.st h.frozen h.records h.legs
  refine ⟨ts, h1, ?_, h2⟩
  unfold Interp.method
  rw [h.objs i, h4]

/-- a function -/
theorem exec_function (sc : Screen) (n : Nat) {w : World} {s : Interp} (h : Matches w s) (c : ApiCall) :
    ∃ texts, (c.model sc w.legs).2.1.mapM (Event.text sc) = some texts ∧
      s.function (Src.library.env sc (n + 8)) c.source.1 c.source.2 =
        ((c.model sc w.legs).1, { s with st := stAfter s.st (c.model sc w.legs).2.2 texts }) := by
  obtain ⟨ts, h1, -, h4⟩ := api_call sc n c w.legs s.st h.frozen h.records h.legs
  refine ⟨ts, h1, ?_⟩
  unfold Interp.function
  rw [h4]

theorem told_decode (sc : Screen) (r : Record) (legs : Legs) (output : Bool) {texts : List Str}
    (h : (r.decode output legs).out.mapM (Event.text sc) = some texts) :
    Told sc (.decode (r.decode output legs).res (r.decode output legs).out) (tableRes sc (r.decodeF sc.printable legs), texts) := by
  have hm := (C108_same sc.printable legs).2.1 r output
  rw [← hm]
  cases hd : r.decodeF sc.printable legs with
  | error e => exact ⟨⟨e, rfl, rfl⟩, h⟩
  | ok rows =>
    obtain ⟨t, ht⟩ := table_shown sc r legs hd
    exact ⟨⟨t, ht, by simp [tableRes, ht]⟩, h⟩

/-- the state after a call that changes `LegTypeDesc` and prints -/
theorem matches_after {w : World} {s : Interp} (h : Matches w s) {legs : Legs} (hl : Grown legs) (ts : List Str) :
    Matches { w with legs := legs } { s with st := stAfter s.st legs ts } :=
  ⟨⟨h.ok.reg, hl, h.ok.objs⟩, h.objs, h.known, h.frozen, after_records _ _ h.records, after_legs _ _ _⟩

/-- one call: what the caller sees, the texts printed, the new state -/
theorem exec_step (sc : Screen) (n : Nat) {w : World} {s : Interp} (h : Matches w s) (op : Op) (hq : Sayable op) :
    ∃ texts, Told sc (w.step op).2 ((s.exec (Src.library.env sc (n + 8)) op).1, texts) ∧
      (s.exec (Src.library.env sc (n + 8)) op).2.st = stAfter s.st (w.step op).1.legs texts ∧
      Matches (w.step op).1 (s.exec (Src.library.env sc (n + 8)) op).2 := by
  have hok := step_ok h.ok op
  cases op with
  | new i =>
    have e : s.exec (Src.library.env sc (n + 8)) (.new i) =
        (.ok .none, ⟨s.st, fun j => if j = i then recordVal Record.new else s.objs j⟩) := by
      simp only [Interp.exec, C121_new sc (n + 7) s.st]
    rw [e]
    refine ⟨[], rfl, (after_same s.st w.legs h.legs).symm, hok, ?_, ?_, h.frozen, h.records, h.legs⟩
    · intro j
      simp only [World.step, World.set]
      split
      · rfl
      · exact h.objs j
    · intro j
      simp only [World.step, World.set]
      split
      · simp [Record.new]
      · exact h.known j
  | read i line =>
    obtain ⟨ts, h1, h2, h3⟩ := exec_method sc n h i (.read line)
    have e : s.exec (Src.library.env sc (n + 8)) (.read i line) = s.method (Src.library.env sc (n + 8)) i (RecCall.read line).source.1 (RecCall.read line).source.2 := rfl
    have hw : w.step (.read i line) = (w.set i ((w.objs i).read line).obj, .read ((w.objs i).read line).res ((w.objs i).read line).out) := by
      simp only [World.step, h.ok.reg, readG_init]
      rw [← h.ok.reg]
    rw [hw] at hok ⊢
    rw [e, h2]
    refine ⟨ts, ⟨answers_bool ((C108_same sc.printable w.legs).1 _ line), h1⟩, rfl, hok, ?_, ?_, h.frozen, after_records _ _ h.records, after_legs _ _ _⟩
    · intro j
      simp only [World.set]
      split
      · rfl
      · exact h.objs j
    · intro j
      simp only [World.set]
      split
      · exact h3
      · exact h.known j
  | decode i output =>
    obtain ⟨ts, h1, h2, h3⟩ := exec_method sc n h i (.decode (some (.bool output)))
    have e : s.exec (Src.library.env sc (n + 8)) (.decode i output) = s.method (Src.library.env sc (n + 8)) i (RecCall.decode (some (.bool output))).source.1 (RecCall.decode (some (.bool output))).source.2 := rfl
    rw [e, h2]
    refine ⟨ts, told_decode sc _ _ output h1, rfl, hok, ?_, h.known, h.frozen, after_records _ _ h.records, after_legs _ _ _⟩
    intro j
    simp only
    split
    · subst j; rfl
    · exact h.objs j
  | json i a b =>
    obtain ⟨ts, h1, h2, h3⟩ := exec_method sc n h i (.json (some (.bool a, some b)))
    have e : s.exec (Src.library.env sc (n + 8)) (.json i a b) = s.method (Src.library.env sc (n + 8)) i (RecCall.json (some (.bool a, some b))).source.1 (RecCall.json (some (.bool a, some b))).source.2 := rfl
    rw [e, h2]
    refine ⟨ts, ⟨rfl, h1⟩, rfl, hok, ?_, h.known, h.frozen, after_records _ _ h.records, after_legs _ _ _⟩
    intro j
    simp only
    split
    · subst j; rfl
    · exact h.objs j
  | parse line output =>
    obtain ⟨ts, h1, h2⟩ := exec_function sc n h (.parse line (some (.bool output)))
    have e : s.exec (Src.library.env sc (n + 8)) (.parse line output) = s.function (Src.library.env sc (n + 8)) (ApiCall.parse line (some (.bool output))).source.1 (ApiCall.parse line (some (.bool output))).source.2 := rfl
    have hw : w.step (.parse line output) = _ := parse_world h.ok line output
    rw [e, h2, hw]
    exact ⟨ts, ⟨answers_bool ((C108_same sc.printable w.legs).2.2.1 line output), h1⟩, rfl, matches_after h (Arinc.parse_legs line output h.ok.legs).2.2 ts⟩
  | readFile f output =>
    obtain ⟨ts, h1, h2⟩ := exec_function sc n h (.readFile f (some (.bool output)))
    have e : s.exec (Src.library.env sc (n + 8)) (.readFile f output) = s.function (Src.library.env sc (n + 8)) (ApiCall.readFile f (some (.bool output))).source.1 (ApiCall.readFile f (some (.bool output))).source.2 := rfl
    have hw : w.step (.readFile f output) = (({ w with legs := (Arinc.readFile f output w.legs).legs }),
       .call (Arinc.readFile f output w.legs).res (Arinc.readFile f output w.legs).out) := by
      simp only [World.step, readFile_world f output h.ok]
    rw [e, h2, hw]
    exact ⟨ts, ⟨answers_none (file_output sc.printable f output w.legs), h1⟩, rfl, matches_after h (readFile_legs f output h.ok.legs).2.2 ts⟩
  | readFolder p =>
    obtain ⟨ts, h1, h2⟩ := exec_function sc n h (.readFolder p)
    have e : s.exec (Src.library.env sc (n + 8)) (.readFolder p) = s.function (Src.library.env sc (n + 8)) (ApiCall.readFolder p).source.1 (ApiCall.readFolder p).source.2 := rfl
    have hw : w.step (.readFolder p) = (({ w with legs := (Arinc.readFolder p w.legs).legs }),
       .call (Arinc.readFolder p w.legs).res (Arinc.readFolder p w.legs).out) := by
      simp only [World.step, readFolder_world p h.ok]
    rw [e, h2, hw]
    exact ⟨ts, ⟨answers_none ((C108_same sc.printable w.legs).2.2.2.2.1 p), h1⟩, rfl, matches_after h (readFolder_legs p h.ok.legs).2.2 ts⟩
  | search f filters =>
    have hw : w.step (.search f filters) = (w, .call (Arinc.search f filters).1 (Arinc.search f filters).2) := by
      simp only [World.step, search_world f filters h.ok]
    have hp := (C108_same sc.printable w.legs).2.2.2.2.2 f filters
    rw [hw]
    cases filters with
    | str t =>
      obtain ⟨ts, h1, h2⟩ := exec_function sc n h (.searchText f t)
      have e : s.exec (Src.library.env sc (n + 8)) (.search f (.str t)) = s.function (Src.library.env sc (n + 8)) (ApiCall.searchText f t).source.1 (ApiCall.searchText f t).source.2 := rfl
      rw [e, h2]
      exact ⟨ts, ⟨answers_none hp, h1⟩, rfl, matches_after h h.ok.legs ts⟩
    | list t =>
      obtain ⟨ts, h1, h2⟩ := exec_function sc n h (.searchAll f t)
      have e : s.exec (Src.library.env sc (n + 8)) (.search f (.list t)) = s.function (Src.library.env sc (n + 8)) (ApiCall.searchAll f t).source.1 (ApiCall.searchAll f t).source.2 := rfl
      rw [e, h2]
      exact ⟨ts, ⟨answers_none hp, h1⟩, rfl, matches_after h h.ok.legs ts⟩
    | other => exact absurd rfl hq

/-- any calls -/
theorem exec_run (sc : Screen) (n : Nat) : ∀ (ops : List Op) {w : World} {s : Interp}, Matches w s → (∀ op ∈ ops, Sayable op) →
    Each (Told sc) (w.run ops).2 (Interp.run (Src.library.env sc (n + 8)) ops s).1 ∧
    (Interp.run (Src.library.env sc (n + 8)) ops s).2.st = stAfter s.st (w.run ops).1.legs
      ((Interp.run (Src.library.env sc (n + 8)) ops s).1.flatMap (·.2)) ∧
    Matches (w.run ops).1 (Interp.run (Src.library.env sc (n + 8)) ops s).2
  | [], w, s, h, _ => ⟨.nil, (after_same s.st w.legs h.legs).symm, h⟩
  | op :: ops, w, s, h, hq => by
    obtain ⟨ts, h1, h2, h3⟩ := exec_step sc n h op (hq op (by simp))
    obtain ⟨g1, g2, g3⟩ := exec_run sc n ops h3 (fun o ho => hq o (by simp [ho]))
    have ht : (s.exec (Src.library.env sc (n + 8)) op).2.st.out.drop s.st.out.length = ts := by
      rw [h2]; exact drop_same _ _
    refine ⟨.cons (ht ▸ h1) g1, ?_, g3⟩
    simp only [Interp.run, World.run]
    rw [g2, h2, after_after, List.flatMap_cons]
    congr 1
    congr 1
    exact (drop_same _ _).symm

/-! ## C124 -/

theorem start_matches : Matches World.init Interp.start :=
  ⟨init_ok, fun _ => rfl, fun _ f hf => by simp [World.init, Record.new] at hf, rfl, rfl, rfl⟩

/-- C124: a program imports the library, makes any number of `Record` objects and calls their methods and the functions of
    the package, in any order and any number of times; it may catch exceptions and go on. The source, executed statement by
    statement, returns, raises and prints in every call what the model of a process says; afterwards every object and
    everything that the modules hold is as the model says. -/
theorem C124_program (sc : Screen) (n : Nat) (ops : List Op) (hq : ∀ op ∈ ops, Sayable op) :
    let r := Interp.run (Src.library.env sc (n + 8)) ops Interp.start
    Each (Told sc) (outcomes ops) r.1 ∧ (∀ i, r.2.objs i = recordVal ((after ops).objs i)) ∧
    r.2.st = stAfter imported (after ops).legs (r.1.flatMap (·.2)) := by
  obtain ⟨h1, h2, h3⟩ := exec_run sc n ops start_matches hq
  exact ⟨h1, h3.objs, h2⟩

/-- C124: of the modules, nothing ever changes but the table of leg types, which gains entries for codes that it does not
    have, all `<UNKNOWN>`. -/
theorem C124_modules (sc : Screen) (n : Nat) (ops : List Op) (hq : ∀ op ∈ ops, Sayable op) :
    ∃ extra, (Interp.run (Src.library.env sc (n + 8)) ops Interp.start).2.st.globals =
        [(py!"LegTypeDesc", legsVal (legTypeDesc ++ extra)), (py!"records", recordsVal)] ∧
      ∀ p ∈ extra, p.1 ∉ legTypeDesc.map Prod.fst ∧ p.2 = py!"<UNKNOWN>" := by
  obtain ⟨-, -, h⟩ := C124_program sc n ops hq
  obtain ⟨extra, he, hx⟩ := C21_grown ops
  refine ⟨extra, ?_, hx⟩
  rw [h, he]
  rfl

theorem field_021F_legs (v : Str) {legs : Legs} (hl : Grown legs) : field_021F v legs = field_021F v legTypeDesc := by
  unfold field_021F
  simp only
  split
  · rfl
  · split
    · rfl
    · cases hk : legTypeDesc.lookup (strip v) with
      | some s => rw [grown_lookup_known hl hk]
      | none => rcases grown_lookup_unknown hl hk with h1 | h1 <;> rw [h1]

theorem runFault_legs (p : Nat → Bool) (fn : DecFn) (v : Str) (rec : RecInfo) {legs : Legs} (hl : Grown legs) :
    runFault p fn v rec legs = runFault p fn v rec legTypeDesc := by
  cases fn
  case f021 => exact field_021F_legs v hl
  all_goals first | rfl | simp only [runFault, (runDec_legs _ v rec hl).1]

theorem decodeRowsF_legs (p : Nat → Bool) (rec : RecInfo) (fs : List Field) {legs : Legs} (hl : Grown legs) :
    decodeRowsF p rec fs legs = decodeRowsF p rec fs legTypeDesc := by
  induction fs generalizing legs with
  | nil => rfl
  | cons f fs ih =>
    unfold decodeRowsF
    rw [runFault_legs p f.dec f.value rec hl, ih (runDec_legs f.dec f.value rec hl).2.2, ih (runDec_legs f.dec f.value rec grown_init).2.2]

/-- what the model says of a method does not depend on what was looked up before -/
theorem rec_model_legs (sc : Screen) (c : RecCall) (r : Record) {legs : Legs} (hl : Grown legs) :
    (c.model sc r legs).1 = (c.model sc r legTypeDesc).1 ∧ (c.model sc r legs).2.1 = (c.model sc r legTypeDesc).2.1 := by
  cases c with
  | decode o =>
    refine ⟨?_, (decode_legs r _ hl).2.1⟩
    simp only [RecCall.model, Record.decodeF, decodeRowsF_legs sc.printable r.info r.fields hl]
  | json o => rcases o with _ | ⟨o, _ | s⟩ <;> exact ⟨rfl, rfl⟩
  | read line => exact ⟨rfl, rfl⟩
  | validate line => exact ⟨rfl, rfl⟩
  | primary => exact ⟨rfl, rfl⟩
  | hasCont => exact ⟨rfl, rfl⟩

theorem method_alike (sc : Screen) (n : Nat) {w w' : World} {s s' : Interp} (h : Matches w s) (h' : Matches w' s') {i : Nat}
    (ho : w.objs i = w'.objs i) (c : RecCall) :
    (s.method (Src.library.env sc (n + 8)) i c.source.1 c.source.2).1 = (s'.method (Src.library.env sc (n + 8)) i c.source.1 c.source.2).1 ∧
    (s.method (Src.library.env sc (n + 8)) i c.source.1 c.source.2).2.st.out.drop s.st.out.length =
      (s'.method (Src.library.env sc (n + 8)) i c.source.1 c.source.2).2.st.out.drop s'.st.out.length := by
  obtain ⟨ts, h1, h2, -⟩ := exec_method sc n h i c
  obtain ⟨ts', h1', h2', -⟩ := exec_method sc n h' i c
  obtain ⟨m1, m2⟩ := rec_model_legs sc c (w.objs i) h.ok.legs
  obtain ⟨m1', m2'⟩ := rec_model_legs sc c (w'.objs i) h'.ok.legs
  rw [m2, ho] at h1
  rw [m2', h1] at h1'
  cases h1'
  rw [h2, h2']
  refine ⟨by rw [m1, m1', ho], ?_⟩
  simp only [stAfter, drop_same]

theorem function_alike (sc : Screen) (n : Nat) {w w' : World} {s s' : Interp} (h : Matches w s) (h' : Matches w' s') (c : ApiCall) :
    (s.function (Src.library.env sc (n + 8)) c.source.1 c.source.2).1 = (s'.function (Src.library.env sc (n + 8)) c.source.1 c.source.2).1 ∧
    (s.function (Src.library.env sc (n + 8)) c.source.1 c.source.2).2.st.out.drop s.st.out.length =
      (s'.function (Src.library.env sc (n + 8)) c.source.1 c.source.2).2.st.out.drop s'.st.out.length := by
  obtain ⟨ts, h1, h2⟩ := exec_function sc n h c
  obtain ⟨ts', h1', h2'⟩ := exec_function sc n h' c
  obtain ⟨m1, m2⟩ := model_legs sc c h.ok.legs
  obtain ⟨m1', m2'⟩ := model_legs sc c h'.ok.legs
  rw [m2] at h1
  rw [m2', h1] at h1'
  cases h1'
  rw [h2, h2']
  refine ⟨by rw [m1, m1'], ?_⟩
  simp only [stAfter, drop_same]

/-- what the caller sees of a call -/
theorem exec_alike (sc : Screen) (n : Nat) {w w' : World} {s s' : Interp} (h : Matches w s) (h' : Matches w' s') (op : Op)
    (ho : ∀ i, target op = some i → w.objs i = w'.objs i) :
    (s.exec (Src.library.env sc (n + 8)) op).1 = (s'.exec (Src.library.env sc (n + 8)) op).1 ∧
    (s.exec (Src.library.env sc (n + 8)) op).2.st.out.drop s.st.out.length =
      (s'.exec (Src.library.env sc (n + 8)) op).2.st.out.drop s'.st.out.length := by
  cases op with
  | new i => simp only [Interp.exec, C121_new sc (n + 7)]; simp
  | read i line =>
    have e : ∀ s : Interp, s.exec (Src.library.env sc (n + 8)) (.read i line) =
        s.method (Src.library.env sc (n + 8)) i (RecCall.read line).source.1 (RecCall.read line).source.2 := fun _ => rfl
    rw [e, e]
    exact method_alike sc n h h' (ho i rfl) (.read line)
  | decode i output =>
    have e : ∀ s : Interp, s.exec (Src.library.env sc (n + 8)) (.decode i output) =
        s.method (Src.library.env sc (n + 8)) i (RecCall.decode (some (.bool output))).source.1 (RecCall.decode (some (.bool output))).source.2 := fun _ => rfl
    rw [e, e]
    exact method_alike sc n h h' (ho i rfl) (.decode (some (.bool output)))
  | json i a b =>
    have e : ∀ s : Interp, s.exec (Src.library.env sc (n + 8)) (.json i a b) =
        s.method (Src.library.env sc (n + 8)) i (RecCall.json (some (.bool a, some b))).source.1 (RecCall.json (some (.bool a, some b))).source.2 := fun _ => rfl
    rw [e, e]
    exact method_alike sc n h h' (ho i rfl) (.json (some (.bool a, some b)))
  | parse line output =>
    have e : ∀ s : Interp, s.exec (Src.library.env sc (n + 8)) (.parse line output) =
        s.function (Src.library.env sc (n + 8)) (ApiCall.parse line (some (.bool output))).source.1 (ApiCall.parse line (some (.bool output))).source.2 := fun _ => rfl
    rw [e, e]
    exact function_alike sc n h h' (.parse line (some (.bool output)))
  | readFile f output =>
    have e : ∀ s : Interp, s.exec (Src.library.env sc (n + 8)) (.readFile f output) =
        s.function (Src.library.env sc (n + 8)) (ApiCall.readFile f (some (.bool output))).source.1 (ApiCall.readFile f (some (.bool output))).source.2 := fun _ => rfl
    rw [e, e]
    exact function_alike sc n h h' (.readFile f (some (.bool output)))
  | readFolder p =>
    have e : ∀ s : Interp, s.exec (Src.library.env sc (n + 8)) (.readFolder p) =
        s.function (Src.library.env sc (n + 8)) (ApiCall.readFolder p).source.1 (ApiCall.readFolder p).source.2 := fun _ => rfl
    rw [e, e]
    exact function_alike sc n h h' (.readFolder p)
  | search f filters =>
    cases filters with
    | str t =>
      have e : ∀ s : Interp, s.exec (Src.library.env sc (n + 8)) (.search f (.str t)) =
          s.function (Src.library.env sc (n + 8)) (ApiCall.searchText f t).source.1 (ApiCall.searchText f t).source.2 := fun _ => rfl
      rw [e, e]
      exact function_alike sc n h h' (.searchText f t)
    | list t =>
      have e : ∀ s : Interp, s.exec (Src.library.env sc (n + 8)) (.search f (.list t)) =
          s.function (Src.library.env sc (n + 8)) (ApiCall.searchAll f t).source.1 (ApiCall.searchAll f t).source.2 := fun _ => rfl
      rw [e, e]
      exact function_alike sc n h h' (.searchAll f t)
    | other => simp [Interp.exec, filtersVal]

theorem run_apart (sc : Screen) (n : Nat) (i : Nat) : ∀ (ops : List Op) {w w' : World} {s s' : Interp}, Matches w s → Matches w' s' →
    w.objs i = w'.objs i → (∀ op ∈ ops, Sayable op) →
    ((ops.zip (Interp.run (Src.library.env sc (n + 8)) ops s).1).filter (fun p => onObject i p.1)).map Prod.snd =
      (Interp.run (Src.library.env sc (n + 8)) (ops.filter (onObject i)) s').1
  | [], _, _, _, _, _, _, _, _ => rfl
  | op :: ops, w, w', s, s', h, h', ho, hq => by
    obtain ⟨_, -, -, h3⟩ := exec_step sc n h op (hq op (by simp))
    have hq' : ∀ o ∈ ops, Sayable o := fun o ho => hq o (by simp [ho])
    by_cases ht : target op = some i
    · have hb : onObject i op = true := by simp [onObject, ht]
      obtain ⟨_, -, -, h3'⟩ := exec_step sc n h' op (hq op (by simp))
      obtain ⟨-, s2⟩ := step_object h.ok h'.ok ht ho
      obtain ⟨e1, e2⟩ := exec_alike sc n h h' op (fun j hj => by rw [ht] at hj; cases hj; exact ho)
      rw [List.filter_cons_of_pos hb]
      simp only [Interp.run, List.zip_cons_cons]
      rw [List.filter_cons_of_pos (p := fun p : Op × (Except Err Val × List Str) => onObject i p.1) hb, List.map_cons,
        run_apart sc n i ops h3 h3' s2 hq', e1, e2]
    · have hb : ¬ onObject i op = true := by simp [onObject, ht]
      rw [List.filter_cons_of_neg hb]
      simp only [Interp.run, List.zip_cons_cons]
      rw [List.filter_cons_of_neg (p := fun p : Op × (Except Err Val × List Str) => onObject i p.1) hb]
      exact run_apart sc n i ops h3 h' ((step_other h.ok ht).trans ho) hq'

/-- C124: what the caller sees of the calls of the methods of an object, message and text included, is the same when all
    other calls are left out. -/
theorem C124_objects (sc : Screen) (n : Nat) (ops : List Op) (hq : ∀ op ∈ ops, Sayable op) (i : Nat) :
    ((ops.zip (Interp.run (Src.library.env sc (n + 8)) ops Interp.start).1).filter (fun p => onObject i p.1)).map Prod.snd =
      (Interp.run (Src.library.env sc (n + 8)) (ops.filter (onObject i)) Interp.start).1 :=
  run_apart sc n i ops start_matches start_matches rfl hq

/-- C124: what the caller sees of a call of a function of the package is the same as in a fresh interpreter. -/
theorem C124_functions (sc : Screen) (n : Nat) (ops : List Op) (hq : ∀ op ∈ ops, Sayable op) {op : Op} (ho : target op = none) :
    let s := (Interp.run (Src.library.env sc (n + 8)) ops Interp.start).2
    (s.exec (Src.library.env sc (n + 8)) op).1 = (Interp.start.exec (Src.library.env sc (n + 8)) op).1 ∧
    (s.exec (Src.library.env sc (n + 8)) op).2.st.out.drop s.st.out.length = (Interp.start.exec (Src.library.env sc (n + 8)) op).2.st.out := by
  obtain ⟨-, -, h⟩ := exec_run sc n ops start_matches hq
  obtain ⟨h1, h2⟩ := exec_alike sc n h start_matches op (fun i hi => by rw [ho] at hi; cases hi)
  exact ⟨h1, h2⟩

end

section
attribute [local instance] Py.Tables.cpython311

/-- C124 (hypotheses are met): two objects and a search in turn; the source gives two JSON texts and a summary -/
example : (∀ op ∈ [Op.new 0, .new 1, .read 0 Sample.airport, .read 1 (py!"ABC"), .json 0 true true, .json 1 false true,
      .search (.text Sample.airport) (.str (py!"TACOMA"))], Sayable op) ∧
    ((Interp.run (Src.library.env someScreen 8) [.new 0, .new 1, .read 0 Sample.airport, .read 1 (py!"ABC"), .json 0 true true,
      .json 1 false true, .search (.text Sample.airport) (.str (py!"TACOMA"))] Interp.start).1.map fun r =>
        (match r.1 with | .ok (.bool b) => toString b | .ok (.str t) => toString t.length | .ok .none => "None" | _ => "?", r.2.length)) =
      [("None", 0), ("None", 0), ("true", 0), ("false", 0), ("831", 1), ("2", 0), ("None", 2)] := by
  refine ⟨?_, by decide +kernel⟩
  intro op h
  simp only [List.mem_cons, List.not_mem_nil, or_false] at h
  rcases h with rfl | rfl | rfl | rfl | rfl | rfl | rfl <;> simp [Sayable]

end
end Arinc.Lang
