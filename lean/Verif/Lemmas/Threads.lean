import Verif.Lemmas.Process
import Verif.Spec.Schedule
/-!
# Lemmas: programs whose outcome does not depend on other threads
-/
namespace Arinc
open Py Spec

/-- what a look-up in `LegTypeDesc` may give while other threads run -/
def Legal (v : Str) (a : Option Str) : Prop :=
  match legTypeDesc.lookup v with
  | some s => a = some s
  | none => a = none ∨ a = some unknown

/-- The program gives this result and these prints within `n` steps, whatever other threads do. -/
inductive Gives {α : Type} : Prog α → Except Exc α → List Event → Nat → Prop
  | done (r : Except Exc α) (n : Nat) : Gives (.done r) r [] n
  | print {e : Event} {k : Prog α} {r : Except Exc α} {out : List Event} {n : Nat} (h : Gives k r out n) :
      Gives (.print e k) r (e :: out) (n + 1)
  | find {v : Str} {k : Option Str → Prog α} {r : Except Exc α} {out : List Event} {n : Nat}
      (h : ∀ a, Legal v a → Gives (k a) r out n) : Gives (.find v k) r out (n + 1)
  | store {v : Str} {k : Prog α} {r : Except Exc α} {out : List Event} {n : Nat}
      (hv : legTypeDesc.lookup v = none) (h : Gives k r out n) : Gives (.store v unknown k) r out (n + 1)
  | has {key : Str} {k : Bool → Prog α} {r : Except Exc α} {out : List Event} {n : Nat}
      (h : Gives (k (inRegistry key)) r out n) : Gives (.has key k) r out (n + 1)
  | get {key : Str} {d : Definition} {k : Option Definition → Prog α} {r : Except Exc α} {out : List Event} {n : Nat}
      (hd : registry.lookup key = some d) (h : Gives (k (some d)) r out n) : Gives (.get key k) r out (n + 1)

theorem Gives.mono {α : Type} {p : Prog α} {r : Except Exc α} {out : List Event} {n m : Nat} (h : Gives p r out n)
    (hm : n ≤ m) : Gives p r out m := by
  induction h generalizing m with
  | done r n => exact .done r m
  | print h ih => obtain ⟨m, rfl⟩ : ∃ k, m = k + 1 := ⟨m - 1, by omega⟩; exact .print (ih (by omega))
  | find h ih => obtain ⟨m, rfl⟩ : ∃ k, m = k + 1 := ⟨m - 1, by omega⟩; exact .find fun a ha => ih a ha (by omega)
  | store hv h ih => obtain ⟨m, rfl⟩ : ∃ k, m = k + 1 := ⟨m - 1, by omega⟩; exact .store hv (ih (by omega))
  | has h ih => obtain ⟨m, rfl⟩ : ∃ k, m = k + 1 := ⟨m - 1, by omega⟩; exact .has (ih (by omega))
  | get hd h ih => obtain ⟨m, rfl⟩ : ∃ k, m = k + 1 := ⟨m - 1, by omega⟩; exact .get hd (ih (by omega))

theorem Gives.bind {α β : Type} {p : Prog α} {x : α} {out out' : List Event} {n n' : Nat} {f : α → Prog β}
    {r : Except Exc β} (h : Gives p (.ok x) out n) (hf : Gives (f x) r out' n') :
    Gives (p.bind f) r (out ++ out') (n + n') := by
  generalize hr : (Except.ok x : Except Exc α) = r' at h
  induction h with
  | done r n => subst hr; exact hf.mono (by omega)
  | print h ih => rw [Nat.add_right_comm]; exact .print (ih hr)
  | find h ih => rw [Nat.add_right_comm]; exact .find fun a ha => ih a ha hr
  | store hv h ih => rw [Nat.add_right_comm]; exact .store hv (ih hr)
  | has h ih => rw [Nat.add_right_comm]; exact .has (ih hr)
  | get hd h ih => rw [Nat.add_right_comm]; exact .get hd (ih hr)

theorem Gives.bind_error {α β : Type} {p : Prog α} {e : Exc} {out : List Event} {n : Nat} {f : α → Prog β}
    (h : Gives p (.error e) out n) : Gives (p.bind f) (.error e) out n := by
  generalize hr : (Except.error e : Except Exc α) = r' at h
  induction h with
  | done r n => subst hr; exact .done _ _
  | print h ih => exact .print (ih hr)
  | find h ih => exact .find fun a ha => ih a ha hr
  | store hv h ih => exact .store hv (ih hr)
  | has h ih => exact .has (ih hr)
  | get hd h ih => exact .get hd (ih hr)

theorem Gives.attempt {α : Type} {p : Prog α} {r : Except Exc α} {out : List Event} {n : Nat} (h : Gives p r out n) :
    Gives p.attempt (.ok r) out n := by
  induction h with
  | done r n => exact .done _ _
  | print h ih => exact .print ih
  | find h ih => exact .find ih
  | store hv h ih => exact .store hv ih
  | has h ih => exact .has ih
  | get hd h ih => exact .get hd ih

theorem gives_emit {α : Type} {es : List Event} {k : Prog α} {r : Except Exc α} {out : List Event} {n : Nat}
    (h : Gives k r out n) : Gives (emit es k) r (es ++ out) (es.length + n) := by
  induction es with
  | nil => rw [List.length_nil, Nat.zero_add]; exact h
  | cons e es ih => rw [List.length_cons, Nat.add_right_comm]; exact .print ih

theorem gives_emit_done {α : Type} {es : List Event} {r : Except Exc α} :
    Gives (emit es (.done r)) r es es.length := by
  have := gives_emit (es := es) (.done r 0)
  rwa [List.append_nil] at this

variable [PyUnicode]

theorem gives_021 (v : Str) : Gives (field_021M v) (field_021 v legTypeDesc).res (field_021 v legTypeDesc).out 2 := by
  unfold field_021M field_021
  simp only
  split
  · exact .done _ _
  · split
    · exact .done _ _
    · refine .find fun a ha => ?_
      unfold Legal at ha
      cases hl : legTypeDesc.lookup (strip v) with
      | some s =>
        rw [hl] at ha
        subst ha
        exact .done _ _
      | none =>
        rw [hl] at ha
        rcases ha with rfl | rfl
        · exact .store hl (.done _ _)
        · exact .done _ _

theorem gives_field (fn : DecFn) (v : Str) (rec : RecInfo) :
    ∃ n, Gives (fieldM fn v rec) (runDec fn v rec legTypeDesc).res (runDec fn v rec legTypeDesc).out n := by
  cases fn
  case f021 => exact ⟨2, gives_021 v⟩
  case ident n =>
    refine ⟨(runDec (.ident n) v rec []).out.length, ?_⟩
    have e : (runDec (.ident n) v rec legTypeDesc).res = (runDec (.ident n) v rec []).res ∧
        (runDec (.ident n) v rec legTypeDesc).out = (runDec (.ident n) v rec []).out := by
      simp only [runDec]
      split <;> exact ⟨rfl, rfl⟩
    rw [e.1, e.2]
    exact gives_emit_done
  all_goals exact ⟨_, gives_emit_done⟩

theorem gives_decodeRows (rec : RecInfo) (fs : List Field) :
    ∃ n, Gives (decodeRowsM rec fs) (decodeRows rec fs legTypeDesc).res (decodeRows rec fs legTypeDesc).out n := by
  induction fs with
  | nil => exact ⟨0, .done _ _⟩
  | cons f fs ih =>
    obtain ⟨n, hn⟩ := gives_field f.dec f.value rec
    obtain ⟨n', hn'⟩ := ih
    have hg := (runDec_legs f.dec f.value rec grown_init).2.2
    have hr := decodeRows_legs rec fs hg
    simp only [decodeRowsM, decodeRows]
    cases hd : (runDec f.dec f.value rec legTypeDesc).res with
    | error e => rw [hd] at hn; exact ⟨_, hn.bind_error⟩
    | ok v =>
      rw [hd] at hn
      simp only [hr.1, hr.2.1]
      cases hq : (decodeRows rec fs legTypeDesc).res with
      | error e => rw [hq] at hn'; exact ⟨_, hn.bind hn'.bind_error⟩
      | ok rows =>
        rw [hq] at hn'
        have := hn.bind (f := fun v => (decodeRowsM rec fs).bind fun rows =>
          .done (.ok (⟨f.name, py!"'" ++ f.value ++ py!"'", v⟩ :: rows))) (hn'.bind (.done _ 0))
        rw [List.append_nil] at this
        exact ⟨_, this⟩

theorem gives_decode (r : Record) (output : Bool) :
    ∃ n, Gives (r.decodeM output) (r.decode output legTypeDesc).res (r.decode output legTypeDesc).out n := by
  obtain ⟨n, hn⟩ := gives_decodeRows r.info r.fields
  unfold Record.decodeM Record.decode
  simp only
  cases hq : (decodeRows r.info r.fields legTypeDesc).res with
  | error e => rw [hq] at hn; exact ⟨_, hn.bind_error⟩
  | ok rows =>
    rw [hq] at hn
    have := hn.bind (f := fun rows => emit (if output then [.table rows] else []) (.done (.ok rows))) gives_emit_done
    cases output with
    | true => exact ⟨_, this⟩
    | false =>
      simp only [Bool.false_eq_true, if_false, List.append_nil] at this
      exact ⟨_, this⟩

theorem gives_readDefinition (r : Record) (line : Str) (h : inRegistry r.ident = true) :
    ∃ n, Gives (r.readDefinitionM line) (.ok (r.readDefinition line)) (r.readDefinition line).out n := by
  unfold inRegistry at h
  obtain ⟨d, hd⟩ := Option.isSome_iff_exists.1 h
  unfold Record.readDefinitionM Record.readDefinition
  rw [hd]
  exact ⟨_, .get hd gives_emit_done⟩

theorem gives_read (r : Record) (line : Str) :
    ∃ n, Gives (r.readM line) (.ok (r.read line)) (r.read line).out n := by
  unfold Record.readM Record.read
  split
  · exact ⟨0, .done _ _⟩
  · simp only
    cases (Slice.pair 4 12).eval line with
    | error e => exact ⟨0, .done _ _⟩
    | ok k =>
      simp only
      split
      · next hk =>
        obtain ⟨n, hn⟩ := gives_readDefinition { r with raw := strip line, ident := slice line 4 6 } line hk
        exact ⟨_, .has (by rw [hk]; exact hn)⟩
      · next hk =>
        have hk' : inRegistry (slice line 4 6) = false := by simpa using hk
        split
        · next h2 =>
          obtain ⟨n, hn⟩ := gives_readDefinition { r with raw := strip line, ident := k } line h2
          exact ⟨_, .has (by rw [hk']; exact .has (by rw [h2]; exact hn))⟩
        · next h2 =>
          have h2' : inRegistry k = false := by simpa using h2
          exact ⟨2, .has (by rw [hk']; exact .has (by rw [h2']; exact .done _ 0))⟩

theorem gives_parse (line : Str) (output : Bool) :
    ∃ n, Gives (parseM line output) (parse line output legTypeDesc).res (parse line output legTypeDesc).out n := by
  obtain ⟨n, hn⟩ := gives_read Record.new line
  unfold parseM parse
  simp only
  cases hq : (Record.new.read line).res with
  | error e =>
    have := hn.bind (f := fun r : ReadOut => match r.res with
      | .error e => .done (.error e)
      | .ok false => .done (.ok false)
      | .ok true => (r.obj.decodeM output).bind fun _ => .done (.ok true)) (out' := []) (n' := 0)
      (r := .error e) (by simp only [hq]; exact .done _ _)
    rw [List.append_nil] at this
    exact ⟨_, this⟩
  | ok b =>
    cases b with
    | false =>
      have := hn.bind (f := fun r : ReadOut => match r.res with
        | .error e => .done (.error e)
        | .ok false => .done (.ok false)
        | .ok true => (r.obj.decodeM output).bind fun _ => .done (.ok true)) (out' := []) (n' := 0)
        (r := .ok false) (by simp only [hq]; exact .done _ _)
      rw [List.append_nil] at this
      exact ⟨_, this⟩
    | true =>
      obtain ⟨n', hn'⟩ := gives_decode (Record.new.read line).obj output
      simp only
      cases hd : ((Record.new.read line).obj.decode output legTypeDesc).res with
      | error e =>
        rw [hd] at hn'
        exact ⟨_, hn.bind (by simp only [hq]; exact hn'.bind_error)⟩
      | ok rows =>
        rw [hd] at hn'
        have := hn.bind (f := fun r : ReadOut => match r.res with
          | .error e => .done (.error e)
          | .ok false => .done (.ok false)
          | .ok true => (r.obj.decodeM output).bind fun _ => .done (.ok true))
          (by simp only [hq]; exact hn'.bind (.done (.ok true) 0))
        rw [List.append_nil] at this
        exact ⟨_, this⟩

theorem gives_parseLines (output : Bool) (ls : List Str) :
    ∃ n, Gives (parseLinesM output ls) (parseLines output ls legTypeDesc).res
      (parseLines output ls legTypeDesc).out n := by
  induction ls with
  | nil => exact ⟨0, .done _ _⟩
  | cons l ls ih =>
    obtain ⟨n, hn⟩ := gives_parse l output
    obtain ⟨n', hn'⟩ := ih
    have hr := parseLines_legs output ls (parse_legs l output grown_init).2.2
    simp only [parseLinesM, parseLines]
    cases hq : (parse l output legTypeDesc).res with
    | error e => rw [hq] at hn; exact ⟨_, hn.bind_error⟩
    | ok b =>
      rw [hq] at hn
      simp only [hr.1, hr.2.1]
      exact ⟨_, hn.bind hn'⟩

theorem gives_readFile (f : FileObj) (output : Bool) :
    ∃ n, Gives (readFileM f output) (readFile f output legTypeDesc).res (readFile f output legTypeDesc).out n := by
  unfold readFileM readFile
  cases f.readlines with
  | error e => exact ⟨0, .done _ _⟩
  | ok ls => exact gives_parseLines output ls

theorem gives_readFiles (fs : List FileObj) :
    ∃ n, Gives (readFilesM fs) (readFiles fs legTypeDesc).res (readFiles fs legTypeDesc).out n := by
  induction fs with
  | nil => exact ⟨0, .done _ _⟩
  | cons f fs ih =>
    obtain ⟨n, hn⟩ := gives_readFile f true
    obtain ⟨n', hn'⟩ := ih
    have hr := readFiles_legs fs (readFile_legs f true grown_init).2.2
    simp only [readFilesM, readFiles]
    cases hq : (readFile f true legTypeDesc).res with
    | error e => rw [hq] at hn; exact ⟨_, hn.bind_error⟩
    | ok b =>
      rw [hq] at hn
      simp only [hr.1, hr.2.1]
      exact ⟨_, hn.bind hn'⟩

theorem gives_readFolder (entries : Option (List FileObj)) :
    ∃ n, Gives (readFolderM entries) (readFolder entries legTypeDesc).res (readFolder entries legTypeDesc).out n := by
  cases entries with
  | none => exact ⟨0, .done _ _⟩
  | some fs => exact gives_readFiles fs

theorem gives_searchLines (filters : Filters) (ls : List Str) (count : Nat) :
    ∃ n, Gives (searchLinesM filters ls count) (searchLines filters ls count).1 (searchLines filters ls count).2 n := by
  induction ls generalizing count with
  | nil => exact ⟨1, .print (.done _ _)⟩
  | cons l ls ih =>
    obtain ⟨n, hn⟩ := gives_read Record.new l
    simp only [searchLinesM, searchLines]
    cases hq : (Record.new.read l).res with
    | error e =>
      refine ⟨n + 0, ?_⟩
      have := hn.bind (f := fun r : ReadOut => match r.res with
        | .error e => .done (.error e)
        | .ok false => searchLinesM filters ls count
        | .ok true =>
          if filters.keep r.obj.raw then .print (.line r.obj.raw) (searchLinesM filters ls (count + 1))
          else searchLinesM filters ls count) (out' := []) (n' := 0) (r := .error e)
        (by simp only [hq]; exact .done _ _)
      rwa [List.append_nil] at this
    | ok b =>
      cases b with
      | false =>
        obtain ⟨n', hn'⟩ := ih count
        exact ⟨_, hn.bind (by simp only [hq]; exact hn')⟩
      | true =>
        by_cases hk : filters.keep (Record.new.read l).obj.raw = true
        · obtain ⟨n', hn'⟩ := ih (count + 1)
          simp only [if_pos hk, List.append_assoc]
          exact ⟨_, hn.bind (by simp only [hq, if_pos hk]; exact .print hn')⟩
        · obtain ⟨n', hn'⟩ := ih count
          simp only [if_neg hk]
          exact ⟨_, hn.bind (by simp only [hq, if_neg hk]; exact hn')⟩

theorem gives_search (f : FileObj) (filters : Filters) :
    ∃ n, Gives (searchM f filters) (search f filters).1 (search f filters).2 n := by
  unfold searchM search
  cases f.readlines with
  | error e => exact ⟨0, .done _ _⟩
  | ok ls => exact gives_searchLines filters ls 0

omit [PyUnicode] in
theorem gives_attempt_bind {α β : Type} {p : Prog α} {r : Except Exc α} {out : List Event} {n : Nat}
    {f : Except Exc α → β} (h : Gives p r out n) :
    Gives (p.attempt.bind fun r => .done (.ok (f r))) (.ok (f r)) out n := by
  have := h.attempt.bind (f := fun r => .done (.ok (f r))) (.done (.ok (f r)) 0)
  rwa [List.append_nil] at this

/-- a call gives the result and the prints, and leaves the objects, that it does with nothing running beside it -/
theorem gives_call {w : World} (h : w.OK) (op : Op) :
    ∃ n, Gives (callM w.objs op) (.ok ((w.step op).1.objs, resultOf (w.step op).2)) (printedBy (w.step op).2) n := by
  cases op with
  | new i => exact ⟨0, .done _ _⟩
  | read i line =>
    obtain ⟨n, hn⟩ := gives_read (w.objs i) line
    simp only [World.step, h.reg, readG_init, resultOf, printedBy, World.set, callM]
    have := hn.bind (f := fun r : ReadOut => .done (.ok
      ((fun j => if j = i then r.obj else w.objs j, .bool r.res) : (Nat → Record) × Result))) (.done _ 0)
    rw [List.append_nil] at this
    exact ⟨_, this⟩
  | decode i output =>
    obtain ⟨n, hn⟩ := gives_decode (w.objs i) output
    obtain ⟨e1, e2, _⟩ := decode_legs (w.objs i) output h.legs
    simp only [World.step, resultOf, printedBy, callM, e1, e2]
    exact ⟨_, gives_attempt_bind hn⟩
  | json i output single_line => exact ⟨_, gives_emit_done⟩
  | parse line output =>
    obtain ⟨n, hn⟩ := gives_parse line output
    obtain ⟨e1, e2, _⟩ := parse_legs line output h.legs
    simp only [World.step, parse_world h line output, resultOf, printedBy, callM, e1, e2]
    exact ⟨_, gives_attempt_bind hn⟩
  | readFile f output =>
    obtain ⟨n, hn⟩ := gives_readFile f output
    obtain ⟨e1, e2, _⟩ := readFile_legs f output h.legs
    simp only [World.step, readFile_world f output h, resultOf, printedBy, callM, e1, e2]
    exact ⟨_, gives_attempt_bind hn⟩
  | readFolder fs =>
    obtain ⟨n, hn⟩ := gives_readFolder fs
    obtain ⟨e1, e2, _⟩ := readFolder_legs fs h.legs
    simp only [World.step, readFolder_world fs h, resultOf, printedBy, callM, e1, e2]
    exact ⟨_, gives_attempt_bind hn⟩
  | search f filters =>
    obtain ⟨n, hn⟩ := gives_search f filters
    simp only [World.step, search_world f filters h, resultOf, printedBy, callM]
    exact ⟨_, gives_attempt_bind hn⟩

theorem gives_thread {w : World} (h : w.OK) (ops : List Op) :
    ∃ n, Gives (threadM w.objs ops) (.ok ((w.run ops).2.map resultOf)) ((w.run ops).2.flatMap printedBy) n := by
  induction ops generalizing w with
  | nil => exact ⟨0, .done _ _⟩
  | cons op ops ih =>
    obtain ⟨n, hn⟩ := gives_call h op
    obtain ⟨n', hn'⟩ := ih (step_ok h op)
    have := hn.bind (f := fun x => (threadM x.1 ops).bind fun rs => .done (.ok (x.2 :: rs)))
      (hn'.bind (.done _ 0))
    rw [List.append_nil] at this
    exact ⟨_, this⟩

theorem gives_alone (ops : List Op) :
    ∃ n, Gives (threadM (fun _ => Record.new) ops) (.ok (aloneResults ops)) (alonePrints ops) n :=
  gives_thread init_ok ops

/-! ## the machine -/

/-- what is shared is as it should be -/
structure Machine.Sound (m : Machine) : Prop where
  legs : ∀ v, Legal v (m.legs.lookup v)
  reg : m.reg = initReg

omit [PyUnicode] in
theorem lookup_setItem (d : Legs) (k v s : Str) :
    (setItem d k s).lookup v = if v = k then some s else d.lookup v := by
  induction d with
  | nil =>
    by_cases h : v = k
    · simp [setItem, h]
    · have : (v == k) = false := by simpa using h
      simp [setItem, List.lookup_cons, h, this]
  | cons a d ih =>
    obtain ⟨a, b⟩ := a
    unfold setItem
    by_cases ha : a = k
    · subst ha
      rw [if_pos rfl]
      by_cases h : v = a
      · simp [h]
      · have : (v == a) = false := by simpa using h
        simp [List.lookup_cons, h, this]
    · rw [if_neg ha]
      by_cases h : v = a
      · subst h
        simp [ha]
      · have : (v == a) = false := by simpa using h
        simp only [List.lookup_cons, this, ih]

/-- what thread `i` still has to do fits what it has printed -/
def Machine.Track (m : Machine) (i : Nat) (r : Except Exc (List Result)) (out : List Event) (n : Nat) : Prop :=
  ∃ rest, Gives (m.threads i) r rest n ∧ printed m i ++ rest = out

theorem start_sound (calls : Nat → List Op) : (Machine.start calls).Sound := by
  refine ⟨fun v => ?_, rfl⟩
  simp only [Machine.start, Legal]
  cases legTypeDesc.lookup v with
  | some s => rfl
  | none => exact .inl rfl

theorem start_track (calls : Nat → List Op) (i : Nat) :
    ∃ n, (Machine.start calls).Track i (.ok (aloneResults (calls i))) (alonePrints (calls i)) n := by
  obtain ⟨n, hn⟩ := gives_alone (calls i)
  exact ⟨n, _, hn, rfl⟩

omit [PyUnicode] in
theorem printed_go (m : Machine) (i j : Nat) (p : Prog (List Result)) : printed (m.go i p) j = printed m j := rfl

omit [PyUnicode] in
theorem printed_log (m : Machine) (i j : Nat) (e : Event) :
    printed { m with log := m.log ++ [(i, e)] } j = printed m j ++ if i = j then [e] else [] := by
  unfold printed
  by_cases h : i = j
  · simp [List.filter_append, h]
  · simp [List.filter_append, h]

omit [PyUnicode] in
theorem step_thread_other (m : Machine) {i j : Nat} (h : j ≠ i) :
    (m.step i).threads j = m.threads j ∧ printed (m.step i) j = printed m j := by
  have hi : ¬ i = j := fun e => h e.symm
  unfold Machine.step
  split <;> simp only [Machine.go, if_neg h, true_and]
  · next e k _ =>
    have := printed_log m i j e
    rw [if_neg hi, List.append_nil] at this
    exact this
  all_goals rfl

omit [PyUnicode] in
/-- a step keeps what is shared as it should be and brings the thread nearer its end -/
theorem step_self {m : Machine} (h : m.Sound) {i : Nat} {r : Except Exc (List Result)} {out : List Event} {n : Nat}
    (ht : m.Track i r out n) : (m.step i).Sound ∧ (m.step i).Track i r out (n - 1) := by
  obtain ⟨rest, hg, hp⟩ := ht
  unfold Machine.step
  generalize hq : m.threads i = p at hg
  cases hg with
  | done r n =>
    exact ⟨h, [], by rw [hq]; exact .done _ _, hp⟩
  | @print e k r rest n hk =>
    refine ⟨⟨h.legs, h.reg⟩, rest, ?_, ?_⟩
    · simp only [Machine.go, if_true]; exact hk
    · simp only
      rw [printed_go, printed_log, if_pos rfl, List.append_assoc]
      exact hp
  | @find v k r rest n hk =>
    refine ⟨⟨h.legs, h.reg⟩, rest, ?_, hp⟩
    simp only [Machine.go, if_true]
    exact hk _ (h.legs v)
  | @store v k r rest n hv hk =>
    refine ⟨⟨fun u => ?_, h.reg⟩, rest, ?_, hp⟩
    · simp only [Machine.go, lookup_setItem]
      by_cases e : u = v
      · subst e
        rw [if_pos rfl]
        unfold Legal
        rw [hv]
        exact .inr rfl
      · rw [if_neg e]
        exact h.legs u
    · simp only [Machine.go, if_true]; exact hk
  | @has key k r rest n hk =>
    refine ⟨⟨h.legs, h.reg⟩, rest, ?_, hp⟩
    simp only [Machine.go, if_true, h.reg, has_initReg]
    exact hk
  | @get key d k r rest n hd hk =>
    have hl : initReg.get key = (some d, initReg) := by
      unfold Reg.get
      rw [lookup_initReg, hd]
      rfl
    refine ⟨⟨h.legs, ?_⟩, rest, ?_, hp⟩
    · simp only [Machine.go, h.reg, hl]
    · simp only [Machine.go, if_true, h.reg, hl]; exact hk

omit [PyUnicode] in
theorem step_track {m : Machine} (h : m.Sound) {j : Nat} {r : Except Exc (List Result)} {out : List Event} {n : Nat}
    (ht : m.Track j r out n) (i : Nat) : (m.step i).Track j r out (if i = j then n - 1 else n) := by
  by_cases e : i = j
  · subst e
    rw [if_pos rfl]
    exact (step_self h ht).2
  · rw [if_neg e]
    obtain ⟨h1, h2⟩ := step_thread_other m (i := i) (j := j) (fun q => e q.symm)
    obtain ⟨rest, hg, hp⟩ := ht
    exact ⟨rest, by rw [h1]; exact hg, by rw [h2]; exact hp⟩

/-- every thread is on its way -/
def Machine.Fine (m : Machine) (calls : Nat → List Op) : Prop :=
  m.Sound ∧ ∀ i, ∃ n, m.Track i (.ok (aloneResults (calls i))) (alonePrints (calls i)) n

theorem start_fine (calls : Nat → List Op) : (Machine.start calls).Fine calls :=
  ⟨start_sound calls, start_track calls⟩

theorem step_fine {m : Machine} {calls : Nat → List Op} (h : m.Fine calls) (i : Nat) : (m.step i).Fine calls := by
  obtain ⟨hs, ht⟩ := h
  obtain ⟨n, hn⟩ := ht i
  refine ⟨(step_self hs hn).1, fun j => ?_⟩
  obtain ⟨n, hn⟩ := ht j
  exact ⟨_, step_track hs hn i⟩

theorem run_fine {m : Machine} {calls : Nat → List Op} (h : m.Fine calls) (schedule : List Nat) :
    (m.run schedule).Fine calls := by
  induction schedule generalizing m with
  | nil => exact h
  | cons i s ih => exact ih (step_fine h i)

theorem run_track {m : Machine} {calls : Nat → List Op} (h : m.Fine calls) {i n : Nat}
    (ht : m.Track i (.ok (aloneResults (calls i))) (alonePrints (calls i)) n) (schedule : List Nat) :
    (m.run schedule).Track i (.ok (aloneResults (calls i))) (alonePrints (calls i)) (n - schedule.count i) := by
  induction schedule generalizing m n with
  | nil => exact ht
  | cons j s ih =>
    have := ih (step_fine h j) (step_track h.1 ht j)
    rw [List.count_cons]
    by_cases e : j = i
    · simp only [e, if_true, beq_self_eq_true] at this ⊢
      rw [Nat.add_comm, ← Nat.sub_sub]
      exact this
    · have e' : (j == i) = false := by simpa using e
      simp only [e, e', if_false, Bool.false_eq_true, Nat.add_zero] at this ⊢
      exact this

omit [PyUnicode] in
theorem gives_zero {α : Type} {p : Prog α} {r : Except Exc α} {out : List Event} (h : Gives p r out 0) :
    p = .done r := by
  cases h; rfl

end Arinc
