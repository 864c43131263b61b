import Verif.Lemmas.Process
import Verif.Props.Samples
/-!
# C19 - C24, C59: `Record.decode`, histories of calls

`after ops` is the state of the process after the calls `ops` (any calls of methods on any
objects and of the functions of the module), `outcomes ops` what these calls returned, raised and printed.

The value a field decodes to is `(runDec f.dec f.value r.info legTypeDesc).res`: the field's own
decoder applied to its raw value and the record, in a process that has just been started.
-/
namespace Arinc
open Py Spec

section
variable [PyUnicode]

/-! ## C21 the leg table -/

/-- C21: after any history the process-wide leg table is the pristine one followed by entries
    for undocumented codes that say `<UNKNOWN>`. -/
theorem C21_grown (ops : List Op) : Grown (after ops).legs := (after_ok ops).legs

/-- C21: hence any lookup gives what the pristine table gives. -/
theorem C21_lookup (ops : List Op) (k : Str) :
    lookupD (after ops).legs k = lookupD legTypeDesc k ∧
    ∀ v, legTypeDesc.lookup k = some v → (after ops).legs.lookup k = some v := by
  have hg := (after_ok ops).legs
  refine ⟨?_, fun v hv => grown_lookup_known hg hv⟩
  unfold lookupD
  cases hk : legTypeDesc.lookup k with
  | some v => rw [grown_lookup_known hg hk]
  | none => rcases grown_lookup_unknown hg hk with h | h <;> rw [h]

/-! ## C19 the table -/

/-- C19: if `decode` returns a table, it has one row per field, in field order: name, raw value
    in single quotes, decoded value. With `output` it is printed, last; without, no table is. -/
theorem C19_table (r : Record) (output : Bool) (legs : Legs) (hl : Grown legs) (rows : List Row)
    (h : (r.decode output legs).res = .ok rows) :
    rows.length = r.fields.length ∧
    (∀ (i : Nat) (f : Field), r.fields[i]? = some f →
      ∃ v, (runDec f.dec f.value r.info legTypeDesc).res = .ok v ∧
        rows[i]? = some ⟨f.name, py!"'" ++ f.value ++ py!"'", v⟩) ∧
    ∃ diag, NoTable diag ∧
      (r.decode output legs).out = diag ++ (if output then [.table rows] else []) := by
  rw [(decode_legs r output hl).1] at h
  rw [(decode_legs r output hl).2.1]
  unfold Record.decode at h ⊢
  simp only at h ⊢
  cases hd : (decodeRows r.info r.fields legTypeDesc).res with
  | error e => rw [hd] at h; cases h
  | ok rows' =>
    rw [hd] at h
    cases h
    obtain ⟨h1, h2⟩ := rowsOf_get (decodeRows_ok.1 hd)
    refine ⟨h1, h2, _, decodeRows_noTable r.info r.fields legTypeDesc, ?_⟩
    cases output <;> simp

/-- C19: `decode` returns a table iff every field decodes. -/
theorem C19_returns_iff (r : Record) (output : Bool) (legs : Legs) (hl : Grown legs) :
    (∃ rows, (r.decode output legs).res = .ok rows) ↔
      ∀ f ∈ r.fields, ∃ v, (runDec f.dec f.value r.info legTypeDesc).res = .ok v := by
  rw [(decode_legs r output hl).1]
  have key : (∃ rows, (r.decode output legTypeDesc).res = .ok rows) ↔
      ∃ rows, (decodeRows r.info r.fields legTypeDesc).res = .ok rows := by
    unfold Record.decode
    simp only
    cases (decodeRows r.info r.fields legTypeDesc).res <;> simp
  rw [key]
  constructor
  · rintro ⟨rows, h⟩ f hf
    obtain ⟨i, hi⟩ := List.getElem?_of_mem hf
    obtain ⟨v, hv, _⟩ := (rowsOf_get (decodeRows_ok.1 h)).2 i f hi
    exact ⟨v, hv⟩
  · intro h
    cases hd : (decodeRows r.info r.fields legTypeDesc).res with
    | ok rows => exact ⟨rows, rfl⟩
    | error e =>
      obtain ⟨pre, f, post, h1, _, h3⟩ := decodeRows_error.1 hd
      obtain ⟨v, hv⟩ := h f (by rw [h1]; simp)
      unfold decoded at h3
      rw [hv] at h3; cases h3

/-! ## C23 errors -/

/-- C23: `decode` raises `e` iff some field's decoder raises `e` and all fields before it decode;
    then no table is printed. -/
theorem C23_first_error (r : Record) (output : Bool) (legs : Legs) (hl : Grown legs) (e : Exc) :
    ((r.decode output legs).res = .error e ↔
      ∃ pre f post, r.fields = pre ++ f :: post ∧
        (∀ g ∈ pre, ∃ v, (runDec g.dec g.value r.info legTypeDesc).res = .ok v) ∧
        (runDec f.dec f.value r.info legTypeDesc).res = .error e) ∧
    ((r.decode output legs).res = .error e → NoTable (r.decode output legs).out) := by
  rw [(decode_legs r output hl).1, (decode_legs r output hl).2.1]
  have key : (r.decode output legTypeDesc).res = .error e ↔
      (decodeRows r.info r.fields legTypeDesc).res = .error e := by
    unfold Record.decode
    simp only
    cases (decodeRows r.info r.fields legTypeDesc).res <;> simp
  constructor
  · rw [key]; exact decodeRows_error
  · intro h
    rw [key] at h
    unfold Record.decode
    simp only [h]
    exact decodeRows_noTable _ _ _

/-! ## C20 repeatability -/

/-- C20: `decode` changes no object and not the registry; its outcome is the same in any two
    histories that leave the object in the same state. -/
theorem C20_history_independent (ops ops' : List Op) (i : Nat) (output : Bool)
    (h : (after ops).objs i = (after ops').objs i) :
    ((after ops).step (.decode i output)).2 = ((after ops').step (.decode i output)).2 ∧
    ((after ops).step (.decode i output)).1.objs = (after ops).objs ∧
    ((after ops).step (.decode i output)).1.reg = (after ops).reg :=
  ⟨(step_object (after_ok ops) (after_ok ops') rfl h).1, rfl, rfl⟩

/-- C20: in particular, decoding again gives the same outcome, whatever happens to other objects
    in between. -/
theorem C20_repeatable (ops between : List Op) (i : Nat) (output : Bool)
    (hb : ∀ op ∈ between, target op ≠ some i) :
    ((after (ops ++ .decode i output :: between)).step (.decode i output)).2 =
      ((after ops).step (.decode i output)).2 := by
  have run_append : ∀ (a b : List Op) (w : World), (w.run (a ++ b)).1 = ((w.run a).1.run b).1 := by
    intro a
    induction a with
    | nil => intro b w; rfl
    | cons op a ih => intro b w; exact ih b _
  have others : ∀ (b : List Op) (w : World), w.OK → (∀ op ∈ b, target op ≠ some i) →
      (w.run b).1.objs i = w.objs i := by
    intro b
    induction b with
    | nil => intro w _ _; rfl
    | cons op b ih =>
      intro w hw hb
      exact (ih _ (step_ok hw op) (fun o ho => hb o (by simp [ho]))).trans
        (step_other hw (hb op (by simp)))
  refine (step_object (after_ok _) (after_ok _) rfl ?_).1
  unfold after
  rw [run_append]
  exact others between _ (step_ok (after_ok ops) (.decode i output)) hb

/-! ## C22 objects do not interfere -/

/-- C22: in any sequence of calls on any objects, the outcomes of the calls on object `i` and its
    final state are those of the subsequence of calls on `i` alone. -/
theorem C22_objects (ops : List Op) (i : Nat) :
    ((ops.zip (outcomes ops)).filter (fun p => onObject i p.1)).map Prod.snd
      = outcomes (ops.filter (onObject i)) ∧
    (after ops).objs i = (after (ops.filter (onObject i))).objs i :=
  run_object init_ok init_ok rfl ops

/-- C22: the outcome of a call of `parse`, `read_file`, `read_folder` or `search` does not depend
    on what happened before, and no object is touched by it. -/
theorem C22_module_functions (ops : List Op) (op : Op) (h : target op = none) :
    ((after ops).step op).2 = (World.init.step op).2 ∧
    ((after ops).step op).1.objs = (after ops).objs := by
  refine ⟨step_module (after_ok ops) init_ok h, ?_⟩
  funext i
  exact step_other (after_ok ops) (by rw [h]; simp)

/-! ## C24 kinds of failure -/

/-- C24: after any history, `decode` on any object returns a table or raises `ValueError` or
    exits; never `IndexError` or `AttributeError`. -/
theorem C24_kinds (ops : List Op) (i : Nat) (output : Bool) (e : Exc)
    (h : (((after ops).objs i).decode output (after ops).legs).res = .error e) :
    e = .valueError ∨ e = .systemExit := by
  have hw := after_ok ops
  obtain ⟨pre, f, post, h1, _, h3⟩ := ((C23_first_error _ output _ hw.legs e).1).1 h
  have hf := hw.objs i f (by rw [h1]; simp)
  rcases runDec_spec f.dec f.value ((after ops).objs i).info legTypeDesc hf with ⟨_, x, hx⟩ | ⟨_, hx⟩
  · rw [hx] at h3; cases h3
  · rw [hx] at h3
    cases h3
    unfold excOf
    split
    · split
      · exact .inl rfl
      · exact .inr rfl
    · exact .inl rfl

/-! ## C59 the registry -/

/-- C59: after any history the registry maps exactly the supported sections, to the same record
    definitions as after import, in the same order. -/
theorem C59_registry (ops : List Op) :
    (after ops).reg = World.init.reg ∧ (after ops).reg.map Prod.fst = supported ∧
    ∀ p ∈ (after ops).reg, p.2.isSome = true := by
  have h := (after_ok ops).reg
  rw [h]
  refine ⟨rfl, ?_, ?_⟩
  · rw [← registry_keys]
    simp [initReg, Function.comp_def]
  · intro p hp
    obtain ⟨q, _, rfl⟩ := List.mem_map.1 hp
    rfl

/-- C59: hence what a call does to one object depends only on this object: reading on an object
    in a process with any history is `Record.read`. -/
theorem C59_read (ops : List Op) (i : Nat) (line : Str) :
    ((after ops).step (.read i line)).2 =
      .read (((after ops).objs i).read line).res (((after ops).objs i).read line).out := by
  simp only [World.step]
  rw [(after_ok ops).reg, readG_init]

end

/-! ## Examples -/

section
attribute [local instance] Py.Tables.cpython311

-- `decode` of a real record returns a table of several rows
example : (((Record.new.read Sample.airport).obj.decode true legTypeDesc).res.map List.length) =
    .ok 28 := by decide +kernel
-- a history after which the table has grown
example : (after [.read 0 Sample.sidBadLeg, .decode 0 false]).legs ≠ legTypeDesc := by decide +kernel
-- an error: the record is accepted, and decoding raises
example : ((Record.new.read Sample.vhfBadFreq).obj.decode true legTypeDesc).res = .error .systemExit := by
  decide +kernel
-- a history in which object 0 has been read, and other objects too
example : ((after [.read 0 Sample.airport, .read 1 Sample.vhf, .decode 1 true]).objs 0).fields ≠ [] := by
  decide +kernel
-- subscripting the registry with a missing key would insert it
example : (initReg.get (py!"ZZ")).2.length = initReg.length + 1 := by decide +kernel
end
end Arinc
