import Verif.Lemmas.SourceApi
/-!
# Source of `parse`, `read_file`, `read_folder`, `search`
-/
namespace Arinc.Lang
open Py

/-- the state in a function -/
def inFn (st : St) (vars : List (Str × Val)) : St := { st with locals := vars }

theorem out_after {st : St} {legs : Legs} (hl : find st.globals (py!"LegTypeDesc") = some (Spec.legsVal legs)) (t : List Str) :
    ({ st with out := st.out ++ t } : St) = Spec.stAfter st legs t := by
  have h := after_same st legs hl
  calc ({ st with out := st.out ++ t } : St) = { Spec.stAfter st legs [] with out := (Spec.stAfter st legs []).out ++ t } := by rw [h]
    _ = Spec.stAfter st legs t := by simp [Spec.stAfter]

section
variable [PyUnicode]

theorem invoke1 {E : Env} {x m : Str} {st st' : St} {cls : Str} {attrs : List (Str × Val)} {res : Except Err Val} {e : Expr} {v v' : Val}
    (hx : st.get x = some (.obj cls attrs)) (ha : find attrs m = none) (he : eval E e st = (.ok v, st))
    (h : E.callMethod cls m (.obj cls attrs) [v] st = (res, st', v')) :
    eval E (.invoke (.name x) m (.cons e .nil)) st = (res, { st' with frozen := st.frozen }.mutate x v') := by
  simp only [eval, evals, hx, bindR_ok, he, ha, isName, Bool.not_true, Bool.or_false]
  rw [h]
  simp only [applyMethod]

theorem read_call (sc : Screen) (n : Nat) (st : St) (hf : st.frozen = false)
    (hg : find st.globals (py!"records") = some Spec.recordsVal) {vars : List (Str × Val)} (self : Record) (line : Str)
    (hr : find vars (py!"r") = some (Spec.recordVal self)) (hline : find vars (py!"line") = some (.str line)) :
    ∃ texts, (self.read line).out.mapM (Event.text sc) = some texts ∧
      eval (Src.library.env sc (n + 5)) (.invoke (.name (py!"r")) (py!"read") (.cons (.name (py!"line")) .nil)) (inFn st vars) =
        (Spec.boolRes (self.readF line), inFn { st with out := st.out ++ texts } (put vars (py!"r") (Spec.recordVal (self.read line).obj))) := by
  obtain ⟨ts, h1, h2⟩ := call_read sc n (inFn st vars) hf hg self line
  refine ⟨ts, h1, ?_⟩
  have hget : ∀ x v, find vars x = some v → (inFn st vars).get x = some v := by
    intro x v h; simp only [St.get, inFn, h]
  rw [invoke1 (hget _ _ hr) rfl (v := .str line) (by rw [eval, hget _ _ hline]) h2]
  simp only [inFn, St.mutate, hr]

theorem decode_call (sc : Screen) (n : Nat) (self : Record) (hk : ∀ f ∈ self.fields, Known f.dec) (o : Val) (legs : Legs) (st : St)
    (hlegs : find st.globals (py!"LegTypeDesc") = some (Spec.legsVal legs)) {vars : List (Str × Val)}
    (hr : find vars (py!"r") = some (Spec.recordVal self)) (ho : find vars (py!"output") = some o) :
    ∃ texts, (self.decode (Spec.isTrue o) legs).out.mapM (Event.text sc) = some texts ∧
      eval (Src.library.env sc (n + 3)) (.invoke (.name (py!"r")) (py!"decode") (.cons (.name (py!"output")) .nil)) (inFn st vars) =
        (Spec.tableRes sc (self.decodeF sc.printable legs), inFn (Spec.stAfter st (self.decode (Spec.isTrue o) legs).legs texts) vars) := by
  obtain ⟨ts, h1, h2⟩ := call_decode sc n self hk o legs (inFn st vars) hlegs
  refine ⟨ts, h1, ?_⟩
  have hget : ∀ x v, find vars x = some v → (inFn st vars).get x = some v := by
    intro x v h; simp only [St.get, inFn, h]
  rw [invoke1 (hget _ _ hr) rfl (v := o) (by rw [eval, hget _ _ ho]) h2]
  refine Prod.ext rfl (mutate_same _ _ ?_)
  simp only [St.get, inFn, Spec.stAfter, hr]

/-- a decoded record is shown -/
theorem table_shown (sc : Screen) (self : Record) (legs : Legs) {rows : List Row} (h : self.decodeF sc.printable legs = .ok rows) :
    ∃ t, shownTable sc.width rows = some t := by
  have hp := plainly_rows sc.printable self.info self.fields legs
  unfold Record.decodeF at h
  rw [h] at hp
  obtain ⟨cells, hc⟩ := rows_shown _ _ _ _ (show (decodeRows self.info self.fields legs).res = .ok rows from hp.symm)
  exact ⟨tableString sc.width tableHead cells, by simp only [shownTable, hc, Option.map]⟩

theorem body_parse (sc : Screen) (n : Nat) (st : St) (hf : st.frozen = false)
    (hg : find st.globals (py!"records") = some Spec.recordsVal) (legs : Legs)
    (hl : find st.globals (py!"LegTypeDesc") = some (Spec.legsVal legs)) (line : Str) (o : Val) :
    ∃ texts, (parse line (Spec.isTrue o) legs).out.mapM (Event.text sc) = some texts ∧ ∃ vars,
      exec (Src.library.env sc (n + 5)) Src.parse.body (inFn st [(py!"line", .str line), (py!"output", o)]) =
        ((match parseF sc.printable line legs with
          | .ok b => .ok (.ret (.bool b))
          | .error e => .error (.fault e)), inFn (Spec.stAfter st (parse line (Spec.isTrue o) legs).legs texts) vars) := by
  let v0 : List (Str × Val) := [(py!"line", .str line), (py!"output", o)]
  let v1 : List (Str × Val) := [(py!"line", .str line), (py!"output", o), (py!"r", Spec.recordVal Record.new)]
  let v2 : List (Str × Val) := [(py!"line", .str line), (py!"output", o), (py!"r", Spec.recordVal (Record.new.read line).obj)]
  have hnew : exec (Src.library.env sc (n + 5)) (.assign (py!"r") (.call (py!"Record") .nil)) (inFn st v0) = (.ok .next, inFn st v1) := by
    refine assign_ok (v := Spec.recordVal Record.new) (st' := inFn st v0) ?_
    rw [eval, evals, bindR_ok, call_Record]
  obtain ⟨ts, h1, h2⟩ := read_call sc n st hf hg (vars := v1) Record.new line rfl rfl
  rw [show put v1 (py!"r") (Spec.recordVal (Record.new.read line).obj) = v2 from rfl, out_after hl] at h2
  have hp := plainly_read Record.new line
  unfold parse parseF
  simp only
  cases hr : Record.new.readF line with
  | error e =>
    rw [hr] at hp h2
    rw [show (Record.new.read line).res = .error e.exc from hp.symm]
    exact ⟨ts, h1, v2, seq_next hnew (seq_error (ite_bad h2))⟩
  | ok b =>
    rw [hr] at hp h2
    rw [show (Record.new.read line).res = .ok b from hp.symm]
    cases b with
    | false => exact ⟨ts, h1, v2, seq_next hnew (seq_next (ite_no h2 rfl rfl) rfl)⟩
    | true =>
      obtain ⟨us, g1, g2⟩ := decode_call sc (n + 2) (Record.new.read line).obj (known_read _ (by simp [Record.new]) _) o legs
        (Spec.stAfter st legs ts) (after_legs _ _ _) (vars := v2) rfl rfl
      rw [after_after] at g2
      have hq := plainly_decode sc.printable (Record.new.read line).obj (Spec.isTrue o) legs
      simp only
      cases hd : (Record.new.read line).obj.decodeF sc.printable legs with
      | error e =>
        rw [hd] at hq g2
        rw [show ((Record.new.read line).obj.decode (Spec.isTrue o) legs).res = .error e.exc from hq.symm]
        exact ⟨ts ++ us, mapM_append _ h1 g1, v2, seq_next hnew (seq_error (ite_yes h2 rfl (seq_error (expr_bad g2))))⟩
      | ok rows =>
        obtain ⟨t, ht⟩ := table_shown sc _ _ hd
        rw [hd] at hq g2
        simp only [Spec.tableRes, ht] at g2
        rw [show ((Record.new.read line).obj.decode (Spec.isTrue o) legs).res = .ok rows from hq.symm]
        exact ⟨ts ++ us, mapM_append _ h1 g1, v2, seq_next hnew (seq_ret (ite_yes h2 rfl (seq_next (expr_ok g2) rfl)))⟩

omit [PyUnicode] in
theorem lookup_parse : Src.library.funcs.lookup (py!"parse") = some Src.parse := by rfl
omit [PyUnicode] in
theorem lookup_search : Src.library.funcs.lookup (py!"search") = some Src.search := by rfl
omit [PyUnicode] in
theorem lookup_read_file : Src.library.funcs.lookup (py!"read_file") = some Src.read_file := by rfl
omit [PyUnicode] in
theorem lookup_read_folder : Src.library.funcs.lookup (py!"read_folder") = some Src.read_folder := by rfl

/-- `parse(line, output)`; without `output` it is `True` -/
theorem call_parse (sc : Screen) (n : Nat) (st : St) (hf : st.frozen = false)
    (hg : find st.globals (py!"records") = some Spec.recordsVal) (legs : Legs)
    (hl : find st.globals (py!"LegTypeDesc") = some (Spec.legsVal legs)) (line : Str) (o : Val) (args : List Val)
    (ha : args = [o] ∨ args = [] ∧ o = .bool true) :
    ∃ texts, (parse line (Spec.isTrue o) legs).out.mapM (Event.text sc) = some texts ∧
      (Src.library.env sc (n + 6)).call (py!"parse") (.str line :: args) st =
        (Spec.boolRes (parseF sc.printable line legs), Spec.stAfter st (parse line (Spec.isTrue o) legs).legs texts) := by
  obtain ⟨ts, h1, vars, h2⟩ := body_parse sc n st hf hg legs hl line o
  refine ⟨ts, h1, ?_⟩
  have hb : bindParams Src.parse.params Src.parse.defaults (.str line :: args) = some [(py!"line", .str line), (py!"output", o)] := by
    rcases ha with rfl | ⟨rfl, rfl⟩ <;> rfl
  rw [env_call, Prog.callFn, lookup_parse]
  simp only [runBody, hb]
  unfold inFn at h2
  rw [h2]
  cases parseF sc.printable line legs <;> rfl

theorem parse_legs (line : Str) (b : Bool) (legs : Legs) : (parse line b legs).legs = (parse line true legs).legs := by
  have h : ((Record.new.read line).obj.decode b legs).legs = ((Record.new.read line).obj.decode true legs).legs ∧
      ((Record.new.read line).obj.decode b legs).res = ((Record.new.read line).obj.decode true legs).res := by
    unfold Record.decode
    simp only
    cases (decodeRows (Record.new.read line).obj.info (Record.new.read line).obj.fields legs).res <;> exact ⟨rfl, rfl⟩
  unfold parse
  simp only
  rw [h.2]
  cases (Record.new.read line).res with
  | error e => rfl
  | ok x =>
    cases x with
    | false => rfl
    | true =>
      simp only
      cases ((Record.new.read line).obj.decode true legs).res <;> exact h.1

/-- the variables of `read_file` in the loop -/
def fileVars (f o : Val) (x : List (Str × Val)) : List (Str × Val) :=
  (py!"path", f) :: (py!"output", o) :: (py!"f", f) :: x

/-- the body of the loop, __init__.py:46 -/
def parseStep : Stmt := .expr (.call (py!"parse") (.cons (.name (py!"line")) (.cons (.name (py!"output")) .nil)))

theorem parse_lines (sc : Screen) (n : Nat) (f o : Val) : ∀ (ls : List Str) (st : St) (legs : Legs) (x : List (Str × Val)),
    st.frozen = false → find st.globals (py!"records") = some Spec.recordsVal →
    find st.globals (py!"LegTypeDesc") = some (Spec.legsVal legs) → (x = [] ∨ ∃ v, x = [(py!"line", v)]) →
    ∃ texts, (parseLines (Spec.isTrue o) ls legs).out.mapM (Event.text sc) = some texts ∧ ∃ x',
      loop (fun v st => exec (Src.library.env sc (n + 6)) parseStep (st.assign (py!"line") v)) (ls.map .str) (inFn st (fileVars f o x)) =
        ((match parseLinesF sc.printable ls legs with
          | .ok () => .ok .next
          | .error e => .error (.fault e)),
         inFn (Spec.stAfter st (parseLines (Spec.isTrue o) ls legs).legs texts) (fileVars f o x'))
  | [], st, legs, x, _, _, hl, _ => by
    refine ⟨[], rfl, x, ?_⟩
    simp only [parseLines, parseLinesF, List.map_nil, loop]
    rw [after_same st legs hl]
  | l :: ls, st, legs, x, hf, hg, hl, hx => by
    obtain ⟨ts, h1, h2⟩ := call_parse sc n (inFn st (fileVars f o [(py!"line", .str l)])) hf hg legs hl l o [o] (.inl rfl)
    have hass : (inFn st (fileVars f o x)).assign (py!"line") (.str l) = inFn st (fileVars f o [(py!"line", .str l)]) := by
      rcases hx with rfl | ⟨v, rfl⟩ <;> rfl
    have hev : eval (Src.library.env sc (n + 6)) (.call (py!"parse") (.cons (.name (py!"line")) (.cons (.name (py!"output")) .nil)))
        (inFn st (fileVars f o [(py!"line", .str l)])) =
        (Spec.boolRes (parseF sc.printable l legs), inFn (Spec.stAfter st (parse l (Spec.isTrue o) legs).legs ts) (fileVars f o [(py!"line", .str l)])) := h2
    have hp := plainly_parse sc.printable l (Spec.isTrue o) legs
    simp only [List.map_cons, loop]
    rw [hass]
    unfold parseLines parseLinesF
    simp only
    cases hr : parseF sc.printable l legs with
    | error e =>
      rw [hr] at hp hev
      rw [show (parse l (Spec.isTrue o) legs).res = .error e.exc from hp.symm, parseStep, expr_bad hev]
      exact ⟨ts, h1, [(py!"line", .str l)], rfl⟩
    | ok b =>
      rw [hr] at hp hev
      rw [show (parse l (Spec.isTrue o) legs).res = .ok b from hp.symm, parseStep, expr_ok hev, ← parse_legs l (Spec.isTrue o)]
      obtain ⟨us, g1, x', g2⟩ := parse_lines sc n f o ls (Spec.stAfter st (parse l (Spec.isTrue o) legs).legs ts) (parse l (Spec.isTrue o) legs).legs
        [(py!"line", .str l)] hf (after_records _ _ hg) (after_legs _ _ _) (.inr ⟨_, rfl⟩)
      refine ⟨ts ++ us, mapM_append _ h1 g1, x', ?_⟩
      rw [after_after] at g2
      exact g2

/-- `read_file(path, output)`; without `output` it is `True` -/
theorem call_read_file (sc : Screen) (n : Nat) (st : St) (hf : st.frozen = false)
    (hg : find st.globals (py!"records") = some Spec.recordsVal) (legs : Legs)
    (hl : find st.globals (py!"LegTypeDesc") = some (Spec.legsVal legs)) (f : FileObj) (o : Val) (args : List Val)
    (ha : args = [o] ∨ args = [] ∧ o = .bool true) :
    ∃ texts, (readFile f (Spec.isTrue o) legs).out.mapM (Event.text sc) = some texts ∧
      (Src.library.env sc (n + 7)).call (py!"read_file") (.file f :: args) st =
        (Spec.noneRes (readFileF sc.printable f legs), Spec.stAfter st (readFile f (Spec.isTrue o) legs).legs texts) := by
  have hb : bindParams Src.read_file.params Src.read_file.defaults (.file f :: args) = some [(py!"path", .file f), (py!"output", o)] := by
    rcases ha with rfl | ⟨rfl, rfl⟩ <;> rfl
  have key : ∀ {texts vars}, exec (Src.library.env sc (n + 6)) Src.read_file.body (inFn st [(py!"path", .file f), (py!"output", o)]) =
      ((match readFileF sc.printable f legs with
          | .ok () => .ok .next
          | .error e => .error (.fault e)), inFn (Spec.stAfter st (readFile f (Spec.isTrue o) legs).legs texts) vars) →
      (Src.library.env sc (n + 7)).call (py!"read_file") (.file f :: args) st =
        (Spec.noneRes (readFileF sc.printable f legs), Spec.stAfter st (readFile f (Spec.isTrue o) legs).legs texts) := by
    intro texts vars h2
    rw [env_call, Prog.callFn, lookup_read_file]
    simp only [runBody, hb]
    unfold inFn at h2
    rw [h2]
    cases readFileF sc.printable f legs <;> rfl
  cases f with
  | unopenable =>
    refine ⟨[], rfl, key (vars := [(py!"path", .file .unopenable), (py!"output", o)]) ?_⟩
    rw [show (readFile .unopenable (Spec.isTrue o) legs).legs = legs from rfl, after_same st legs hl]
    rfl
  | undecodable =>
    refine ⟨[], rfl, key (vars := fileVars (.file .undecodable) o []) ?_⟩
    rw [show (readFile .undecodable (Spec.isTrue o) legs).legs = legs from rfl, after_same st legs hl]
    rfl
  | text s =>
    obtain ⟨ts, h1, x', h2⟩ := parse_lines sc n (.file (.text s)) o (Py.readlines s) st legs [] hf hg hl (.inl rfl)
    exact ⟨ts, h1, key (vars := fileVars (.file (.text s)) o x') h2⟩

/-- the variables of `read_folder` in the loop -/
def folderVars (p : Val) (x : List (Str × Val)) : List (Str × Val) := (py!"path", p) :: x

/-- the body of the loop, __init__.py:54 -/
def fileStep : Stmt :=
  match Src.read_folder.body with
  | .forIn _ _ b => b
  | s => s

theorem read_files (sc : Screen) (n : Nat) (p : Option (List FileObj)) : ∀ (fs : List FileObj) (st : St) (legs : Legs) (x : List (Str × Val)),
    st.frozen = false → find st.globals (py!"records") = some Spec.recordsVal →
    find st.globals (py!"LegTypeDesc") = some (Spec.legsVal legs) → (x = [] ∨ ∃ v, x = [(py!"file", v)]) →
    ∃ texts, (readFiles fs legs).out.mapM (Event.text sc) = some texts ∧ ∃ x',
      loop (fun v st => exec (Src.library.env sc (n + 7)) fileStep (st.assign (py!"file") v)) (fs.map .file) (inFn st (folderVars (.folder p) x)) =
        ((match readFilesF sc.printable fs legs with
          | .ok () => .ok .next
          | .error e => .error (.fault e)),
         inFn (Spec.stAfter st (readFiles fs legs).legs texts) (folderVars (.folder p) x'))
  | [], st, legs, x, _, _, hl, _ => by
    refine ⟨[], rfl, x, ?_⟩
    simp only [readFiles, readFilesF, List.map_nil, loop]
    rw [after_same st legs hl]
  | f :: fs, st, legs, x, hf, hg, hl, hx => by
    obtain ⟨ts, h1, h2⟩ := call_read_file sc n (inFn st (folderVars (.folder p) [(py!"file", .file f)])) hf hg legs hl f (.bool true) [] (.inr ⟨rfl, rfl⟩)
    rw [show Spec.isTrue (.bool true) = true from rfl] at h1 h2
    have hass : (inFn st (folderVars (.folder p) x)).assign (py!"file") (.file f) = inFn st (folderVars (.folder p) [(py!"file", .file f)]) := by
      rcases hx with rfl | ⟨v, rfl⟩ <;> rfl
    have hev : eval (Src.library.env sc (n + 7)) (match fileStep with | .expr e => e | _ => .const .none)
        (inFn st (folderVars (.folder p) [(py!"file", .file f)])) =
        (Spec.noneRes (readFileF sc.printable f legs), inFn (Spec.stAfter st (readFile f true legs).legs ts) (folderVars (.folder p) [(py!"file", .file f)])) := h2
    have hp := plainly_file sc.printable f legs
    simp only [List.map_cons, loop]
    rw [hass]
    unfold readFiles readFilesF
    simp only
    cases hr : readFileF sc.printable f legs with
    | error e =>
      rw [hr] at hp hev
      rw [show (readFile f true legs).res = .error e.exc from hp.symm]
      refine ⟨ts, h1, [(py!"file", .file f)], ?_⟩
      rw [show exec (Src.library.env sc (n + 7)) fileStep (inFn st (folderVars (.folder p) [(py!"file", .file f)])) = _ from expr_bad hev]
      rfl
    | ok b =>
      rw [hr] at hp hev
      rw [show (readFile f true legs).res = .ok b from hp.symm]
      obtain ⟨us, g1, x', g2⟩ := read_files sc n p fs (Spec.stAfter st (readFile f true legs).legs ts) (readFile f true legs).legs
        [(py!"file", .file f)] hf (after_records _ _ hg) (after_legs _ _ _) (.inr ⟨_, rfl⟩)
      refine ⟨ts ++ us, mapM_append _ h1 g1, x', ?_⟩
      rw [after_after] at g2
      rw [show exec (Src.library.env sc (n + 7)) fileStep (inFn st (folderVars (.folder p) [(py!"file", .file f)])) = _ from expr_ok hev]
      exact g2

/-- `read_folder(path)` -/
theorem call_read_folder (sc : Screen) (n : Nat) (st : St) (hf : st.frozen = false)
    (hg : find st.globals (py!"records") = some Spec.recordsVal) (legs : Legs)
    (hl : find st.globals (py!"LegTypeDesc") = some (Spec.legsVal legs)) (p : Option (List FileObj)) :
    ∃ texts, (readFolder p legs).out.mapM (Event.text sc) = some texts ∧
      (Src.library.env sc (n + 8)).call (py!"read_folder") [.folder p] st =
        (Spec.noneRes (readFolderF sc.printable p legs), Spec.stAfter st (readFolder p legs).legs texts) := by
  have key : ∀ {texts vars}, exec (Src.library.env sc (n + 7)) Src.read_folder.body (inFn st [(py!"path", .folder p)]) =
      ((match readFolderF sc.printable p legs with
          | .ok () => .ok .next
          | .error e => .error (.fault e)), inFn (Spec.stAfter st (readFolder p legs).legs texts) vars) →
      (Src.library.env sc (n + 8)).call (py!"read_folder") [.folder p] st =
        (Spec.noneRes (readFolderF sc.printable p legs), Spec.stAfter st (readFolder p legs).legs texts) := by
    intro texts vars h2
    rw [env_call, Prog.callFn, lookup_read_folder]
    simp only [runBody, bindParams, Option.map, show Src.read_folder.params = [py!"path"] from rfl]
    unfold inFn at h2
    rw [h2]
    cases readFolderF sc.printable p legs <;> rfl
  cases p with
  | none =>
    refine ⟨[], rfl, key (vars := folderVars (.folder none) []) ?_⟩
    rw [show (readFolder none legs).legs = legs from rfl, after_same st legs hl]
    rfl
  | some fs =>
    obtain ⟨ts, h1, x', h2⟩ := read_files sc n (some fs) fs st legs [] hf hg hl (.inl rfl)
    exact ⟨ts, h1, key (vars := folderVars (.folder (some fs)) x') h2⟩

/-! ## `search` -/

/-- the variables of `search` in the loop -/
def searchVars (f fv : Val) (count : Nat) (x : List (Str × Val)) : List (Str × Val) :=
  (py!"file", f) :: (py!"filters", fv) :: (py!"f", f) :: (py!"count", .int count) :: x

/-- the loop, __init__.py:25-36 -/
def searchLoop : Stmt :=
  match Src.search.body with
  | .withOpen _ _ (.seq _ (.seq a _)) => a
  | s => s

/-- its body -/
def searchStep : Stmt :=
  match searchLoop with
  | .forIn _ _ b => b
  | s => s

/-- `print(colored(...))`, __init__.py:37 -/
def searchEnd : Stmt :=
  match Src.search.body with
  | .withOpen _ _ (.seq _ (.seq _ a)) => a
  | s => s

omit [PyUnicode] in
theorem texts_strs (ss : List Str) : texts (ss.map .str) = some ss := by
  induction ss with
  | nil => rfl
  | cons s ss ih => simp only [List.map_cons, texts, ih, Option.map]

/-- the filters, __init__.py:29-34 -/
theorem filter_step {E : Env} {filters : Filters} {fv : Val} (hv : Spec.filtersVal filters = some fv) (st : St) (f : Val) (count : Nat)
    (line : Val) (r : Record) :
    exec E (match dropS 2 searchStep with | .seq a _ => a | s => s) (inFn st (searchVars f fv count [(py!"line", line), (py!"r", Spec.recordVal r)])) =
      (.ok (if filters.keep r.raw then .next else .continue), inFn st (searchVars f fv count [(py!"line", line), (py!"r", Spec.recordVal r)])) := by
  generalize hS : inFn st (searchVars f fv count [(py!"line", line), (py!"r", Spec.recordVal r)]) = S
  have e1 : eval E (.name (py!"filters")) S = (.ok fv, S) := by subst hS; rfl
  have e2 : eval E (.attr (.name (py!"r")) (py!"raw")) S = (.ok (.str r.raw), S) := by subst hS; rfl
  cases filters with
  | other => simp [Spec.filtersVal] at hv
  | str s =>
    simp only [Spec.filtersVal, Option.some.injEq] at hv
    subst hv
    refine ite_yes (v := .bool true) (st' := S) (by rw [eval, evals, e1]; rfl) rfl ?_
    have e3 : eval E (.cmp .notIn (.name (py!"filters")) (.attr (.name (py!"r")) (py!"raw"))) S = (.ok (.bool (!contains s r.raw)), S) := by
      rw [cmp_of e1 e2]; rfl
    by_cases hc : contains s r.raw = true
    · rw [hc] at e3; rw [if_pos (show Filters.keep (.str s) r.raw = true from hc)]; exact ite_no e3 rfl rfl
    · rw [Bool.not_eq_true] at hc
      rw [hc] at e3; rw [if_neg (by rw [show Filters.keep (.str s) r.raw = false from hc]; simp)]; exact ite_yes e3 rfl rfl
  | list ss =>
    simp only [Spec.filtersVal, Option.some.injEq] at hv
    subst hv
    refine ite_no (v := .bool false) (st' := S) (by rw [eval, evals, e1]; rfl) rfl ?_
    refine ite_yes (v := .bool true) (st' := S) (by rw [eval, evals, e1]; rfl) rfl ?_
    have e3 : eval E (.prim .allIn (.cons (.attr (.name (py!"r")) (py!"raw")) (.cons (.name (py!"filters")) .nil))) S =
        (.ok (.bool (ss.all fun t => contains t r.raw)), S) := by
      rw [eval, evals, e2, bindR_ok, evals, e1, bindR_ok, evals, bindR_ok, bindR_ok, bindR_ok]
      simp only [callPrim, texts_strs, Option.map, answer]
    by_cases hc : (ss.all fun t => contains t r.raw) = true
    · rw [hc] at e3; rw [if_pos (show Filters.keep (.list ss) r.raw = true from hc)]; exact ite_no (is_bool e3) rfl rfl
    · rw [Bool.not_eq_true] at hc
      rw [hc] at e3; rw [if_neg (by rw [show Filters.keep (.list ss) r.raw = false from hc]; simp)]; exact ite_yes (is_bool e3) rfl rfl

/-- what a line of the file adds: the texts, and to the number of records found -/
theorem search_step (sc : Screen) (n : Nat) {filters : Filters} {fv : Val} (hv : Spec.filtersVal filters = some fv) (st : St)
    (hf : st.frozen = false) (hg : find st.globals (py!"records") = some Spec.recordsVal) (f : Val) (count : Nat) (l : Str)
    (x : List (Str × Val)) (hx : x = [] ∨ ∃ v w, x = [(py!"line", v), (py!"r", w)]) :
    ∃ texts, (Record.new.read l).out.mapM (Event.text sc) = some texts ∧ ∃ v w,
      exec (Src.library.env sc (n + 5)) searchStep ((inFn st (searchVars f fv count x)).assign (py!"line") (.str l)) =
        match Record.new.readF l with
        | .error e => (.error (.fault e), inFn { st with out := st.out ++ texts } (searchVars f fv count [(py!"line", v), (py!"r", w)]))
        | .ok false => (.ok .continue, inFn { st with out := st.out ++ texts } (searchVars f fv count [(py!"line", v), (py!"r", w)]))
        | .ok true =>
          if filters.keep (Record.new.read l).obj.raw then
            (.ok .next, inFn { st with out := st.out ++ texts ++ [(Record.new.read l).obj.raw] } (searchVars f fv (count + 1) [(py!"line", v), (py!"r", w)]))
          else (.ok .continue, inFn { st with out := st.out ++ texts } (searchVars f fv count [(py!"line", v), (py!"r", w)])) := by
  let v1 := searchVars f fv count [(py!"line", .str l), (py!"r", Spec.recordVal Record.new)]
  let v2 := searchVars f fv count [(py!"line", .str l), (py!"r", Spec.recordVal (Record.new.read l).obj)]
  have hnew : exec (Src.library.env sc (n + 5)) (.assign (py!"r") (.call (py!"Record") .nil))
      ((inFn st (searchVars f fv count x)).assign (py!"line") (.str l)) = (.ok .next, inFn st v1) := by
    have h : exec (Src.library.env sc (n + 5)) (.assign (py!"r") (.call (py!"Record") .nil))
      ((inFn st (searchVars f fv count x)).assign (py!"line") (.str l)) = _ :=
      assign_ok (v := Spec.recordVal Record.new) (st' := (inFn st (searchVars f fv count x)).assign (py!"line") (.str l))
        (by rw [eval, evals, bindR_ok, call_Record])
    rw [h]
    rcases hx with rfl | ⟨v, w, rfl⟩ <;> rfl
  obtain ⟨ts, h1, h2⟩ := read_call sc n st hf hg (vars := v1) Record.new l rfl rfl
  rw [show put v1 (py!"r") (Spec.recordVal (Record.new.read l).obj) = v2 from rfl] at h2
  refine ⟨ts, h1, .str l, Spec.recordVal (Record.new.read l).obj, ?_⟩
  have hfilter := filter_step (E := Src.library.env sc (n + 5)) hv { st with out := st.out ++ ts } f count (.str l) (Record.new.read l).obj
  cases hr : Record.new.readF l with
  | error e =>
    rw [hr] at h2
    exact seq_next hnew (seq_error (ite_bad (is_bad h2)))
  | ok b =>
    rw [hr] at h2
    cases b with
    | false => exact seq_next hnew (seq_continue (ite_yes (is_bool h2) rfl rfl))
    | true =>
      refine seq_next hnew (seq_next (ite_no (is_bool h2) rfl rfl) ?_)
      simp only
      cases hk : filters.keep (Record.new.read l).obj.raw
      · rw [hk] at hfilter
        exact seq_continue hfilter
      · rw [hk] at hfilter
        refine seq_next hfilter (seq_next (print_text (s := (Record.new.read l).obj.raw) rfl) ?_)
        rfl

theorem search_lines (sc : Screen) (n : Nat) {filters : Filters} {fv : Val} (hv : Spec.filtersVal filters = some fv) (f : Val) :
    ∀ (ls : List Str) (st : St) (count : Nat) (x : List (Str × Val)),
    st.frozen = false → find st.globals (py!"records") = some Spec.recordsVal → (x = [] ∨ ∃ v w, x = [(py!"line", v), (py!"r", w)]) →
    ∃ texts count' x',
      loop (fun v st => exec (Src.library.env sc (n + 5)) searchStep (st.assign (py!"line") v)) (ls.map .str) (inFn st (searchVars f fv count x)) =
        ((match searchLinesF ls with
          | .ok () => .ok .next
          | .error e => .error (.fault e)), inFn { st with out := st.out ++ texts } (searchVars f fv count' x')) ∧
      match searchLinesF ls with
      | .ok () => ∃ es, es.mapM (Event.text sc) = some texts ∧ (searchLines filters ls count).2 = es ++ [.summary count' filters (count' != 0)]
      | .error _ => (searchLines filters ls count).2.mapM (Event.text sc) = some texts
  | [], st, count, x, _, _, _ => by
    refine ⟨[], count, x, ?_, [], rfl, rfl⟩
    simp only [List.map_nil, loop, List.append_nil, searchLinesF]
  | l :: ls, st, count, x, hf, hg, hx => by
    obtain ⟨ts, h1, v, w, h2⟩ := search_step sc n hv st hf hg f count l x hx
    have hp := plainly_read Record.new l
    simp only [List.map_cons, loop, searchLinesF, searchLines]
    rw [h2]
    have tail : ∀ (us : List Str) (es : List Event) (c : Nat), es.mapM (Event.text sc) = some us → ∃ texts count' x',
        loop (fun v st => exec (Src.library.env sc (n + 5)) searchStep (st.assign (py!"line") v)) (ls.map .str)
          (inFn { st with out := st.out ++ us } (searchVars f fv c [(py!"line", v), (py!"r", w)])) =
        ((match searchLinesF ls with
          | .ok () => .ok .next
          | .error e => .error (.fault e)), inFn { st with out := st.out ++ texts } (searchVars f fv count' x')) ∧
        match searchLinesF ls with
        | .ok () => ∃ fs, fs.mapM (Event.text sc) = some texts ∧ es ++ (searchLines filters ls c).2 = fs ++ [.summary count' filters (count' != 0)]
        | .error _ => (es ++ (searchLines filters ls c).2).mapM (Event.text sc) = some texts := by
      intro us es c he
      obtain ⟨ts', c', x', g1, g2⟩ := search_lines sc n hv f ls { st with out := st.out ++ us } c [(py!"line", v), (py!"r", w)] hf hg (.inr ⟨_, _, rfl⟩)
      refine ⟨us ++ ts', c', x', ?_, ?_⟩
      · rw [g1]; simp [List.append_assoc]
      · cases hr : searchLinesF ls with
        | error e => rw [hr] at g2; exact mapM_append _ he g2
        | ok u =>
          rw [hr] at g2
          obtain ⟨fs, g3, g4⟩ := g2
          exact ⟨es ++ fs, mapM_append _ he g3, by rw [g4, List.append_assoc]⟩
    cases hr : Record.new.readF l with
    | error e =>
      rw [hr] at hp
      simp only [show (Record.new.read l).res = .error e.exc from hp.symm]
      exact ⟨ts, count, _, rfl, h1⟩
    | ok b =>
      rw [hr] at hp
      cases b with
      | false =>
        simp only [show (Record.new.read l).res = .ok false from hp.symm]
        exact tail ts _ count h1
      | true =>
        simp only [show (Record.new.read l).res = .ok true from hp.symm]
        cases hk : filters.keep (Record.new.read l).obj.raw
        · simp only [Bool.false_eq_true, if_false]
          exact tail ts _ count h1
        · simp only [if_true]
          have := tail (ts ++ [(Record.new.read l).obj.raw]) ((Record.new.read l).out ++ [.line (Record.new.read l).obj.raw]) (count + 1)
            (mapM_append _ h1 (by simp [Event.text]))
          rw [← List.append_assoc] at this
          exact this

theorem natStr_count (c : Nat) : intStr (c : Int) = natStr c := by simp [intStr]

theorem end_search (sc : Screen) (n : Nat) {filters : Filters} {fv : Val} (hv : Spec.filtersVal filters = some fv) (st : St) (f : Val) (count : Nat)
    (x : List (Str × Val)) :
    ∃ t, Event.text sc (.summary count filters (count != 0)) = some t ∧
      exec (Src.library.env sc n) searchEnd (inFn st (searchVars f fv count x)) =
        (.ok .next, inFn { st with out := st.out ++ [t] } (searchVars f fv count x)) := by
  obtain ⟨ft, h1, h2⟩ : ∃ ft, filters.shown sc.printable = some ft ∧ plainText sc fv = some ft := by
    cases filters with
    | other => simp [Spec.filtersVal] at hv
    | str s => simp only [Spec.filtersVal, Option.some.injEq] at hv; subst hv; exact ⟨_, rfl, rfl⟩
    | list ss =>
      simp only [Spec.filtersVal, Option.some.injEq] at hv
      subst hv
      exact ⟨_, rfl, by simp only [plainText, texts_strs, Option.map]⟩
  refine ⟨colored sc.colour (count != 0) (py!"Found " ++ natStr count ++ py!" records that contain " ++ ft),
    by simp only [Event.text, summaryText, h1, Option.map], ?_⟩
  generalize hS : inFn st (searchVars f fv count x) = S
  have e1 : eval (Src.library.env sc n) (.name (py!"filters")) S = (.ok fv, S) := by subst hS; rfl
  have e2 : eval (Src.library.env sc n) (.name (py!"count")) S = (.ok (.int count), S) := by subst hS; rfl
  have e3 : eval (Src.library.env sc n) (.cond (.name (py!"count")) (.const (.str (py!"green"))) (.const (.str (py!"red")))) S =
      (.ok (.str (if count != 0 then py!"green" else py!"red")), S) := by
    rw [eval, e2, bindR_ok]
    cases count <;> rfl
  have e4 : eval (Src.library.env sc n) (.join (.cons (.const (.str (py!"Found "))) (.cons (.fmt .plain (.name (py!"count")))
      (.cons (.const (.str (py!" records that contain "))) (.cons (.fmt .plain (.name (py!"filters"))) .nil))))) S =
      (.ok (.str (py!"Found " ++ natStr count ++ py!" records that contain " ++ ft)), S) := by
    have p1 : eval (Src.library.env sc n) (.fmt .plain (.name (py!"filters"))) S = (.ok (.str ft), S) := by
      rw [eval, e1, bindR_ok, format, env_sc, h2]; rfl
    have p2 : eval (Src.library.env sc n) (.fmt .plain (.name (py!"count"))) S = (.ok (.str (natStr count)), S) := by
      rw [eval, e2, bindR_ok, format, plainText, natStr_count]; rfl
    rw [eval]
    simp only [evals]
    rw [eval, bindR_ok, p2, bindR_ok, eval, bindR_ok, p1]
    simp only [bindR_ok, texts, Option.map, asText]
    simp [List.append_assoc]
  have e5 : eval (Src.library.env sc n) (match searchEnd with | .expr (.prim _ (.cons e _)) => e | _ => .const .none) S =
      (.ok (.str (colored sc.colour (count != 0) (py!"Found " ++ natStr count ++ py!" records that contain " ++ ft))), S) := by
    refine (show _ = bindR (evals (Src.library.env sc n) _ S) (fun vs st => callPrim (Src.library.env sc n) .colored vs st) from rfl).trans ?_
    rw [evals, e4, bindR_ok, evals, e3, bindR_ok, evals, bindR_ok, bindR_ok, bindR_ok]
    cases count with
    | zero => simp only [callPrim, env_sc]; rfl
    | succ c => simp only [callPrim, env_sc]; rfl
  have h := print_text (E := Src.library.env sc n) e5
  subst hS
  exact h

/-- `search(file, filters)` -/
theorem call_search (sc : Screen) (n : Nat) (st : St) (hf : st.frozen = false)
    (hg : find st.globals (py!"records") = some Spec.recordsVal) (f : FileObj) (filters : Filters) (fv : Val)
    (hv : Spec.filtersVal filters = some fv) :
    ∃ texts, (search f filters).2.mapM (Event.text sc) = some texts ∧
      (Src.library.env sc (n + 6)).call (py!"search") [.file f, fv] st =
        (Spec.noneRes (searchF f), { st with out := st.out ++ texts }) := by
  have key : ∀ {texts vars}, exec (Src.library.env sc (n + 5)) Src.search.body (inFn st [(py!"file", .file f), (py!"filters", fv)]) =
      ((match searchF f with
          | .ok () => .ok .next
          | .error e => .error (.fault e)), inFn { st with out := st.out ++ texts } vars) →
      (Src.library.env sc (n + 6)).call (py!"search") [.file f, fv] st =
        (Spec.noneRes (searchF f), { st with out := st.out ++ texts }) := by
    intro texts vars h2
    rw [env_call, Prog.callFn, lookup_search]
    simp only [runBody, bindParams, Option.map, show Src.search.params = [py!"file", py!"filters"] from rfl]
    unfold inFn at h2
    rw [h2]
    cases searchF f <;> rfl
  have hopen : ∀ {r : Res Flow}, f ≠ .unopenable → exec (Src.library.env sc (n + 5)) (.seq searchLoop searchEnd)
      (inFn st (searchVars (.file f) fv 0 [])) = r →
      exec (Src.library.env sc (n + 5)) Src.search.body (inFn st [(py!"file", .file f), (py!"filters", fv)]) = r := by
    intro r hn h
    rw [← h]
    cases f <;> first | rfl | exact absurd rfl hn
  cases f with
  | unopenable =>
    refine ⟨[], rfl, key (vars := [(py!"file", .file .unopenable), (py!"filters", fv)]) ?_⟩
    simp only [List.append_nil]
    rfl
  | undecodable =>
    refine ⟨[], rfl, key (vars := searchVars (.file .undecodable) fv 0 []) (hopen (by simp) (seq_error ?_))⟩
    simp only [List.append_nil]
    rfl
  | text s =>
    obtain ⟨ts, c', x', h1, h2⟩ := search_lines sc n hv (.file (.text s)) (Py.readlines s) st 0 [] hf hg (.inl rfl)
    have hloop : exec (Src.library.env sc (n + 5)) searchLoop (inFn st (searchVars (.file (.text s)) fv 0 [])) = _ := h1
    simp only [search, searchF, FileObj.readlines] at key ⊢
    cases hr : searchLinesF (Py.readlines s) with
    | error e =>
      rw [hr] at h2 hloop key
      exact ⟨ts, h2, key (hopen (by simp) (seq_error hloop))⟩
    | ok u =>
      rw [hr] at h2 hloop key
      obtain ⟨es, g1, g2⟩ := h2
      obtain ⟨t, k1, k2⟩ := end_search sc (n + 5) hv { st with out := st.out ++ ts } (.file (.text s)) c' x'
      refine ⟨ts ++ [t], ?_, key (vars := searchVars (.file (.text s)) fv c' x') (hopen (by simp) (seq_next hloop (k2.trans ?_)))⟩
      · rw [g2]; exact mapM_append _ g1 (by simp [k1])
      · simp only [List.append_assoc]

end
end Arinc.Lang
