import Verif.Lemmas.SourceDefs
/-!
# Lemmas: the objects in `records` and their source
-/
namespace Arinc.Lang
open Py

/-- the number in an attribute, or none -/
def intAttrIs (C : Class) (a : Str) : Option Nat → Bool
  | some i => match find C.attrs a with
    | some (.int (.ofNat j)) => i == j
    | _ => false
  | none => (find C.attrs a).isNone

/-- the text in an attribute, or none -/
def strAttrIs (C : Class) (a : Str) : Option Str → Bool
  | some s => match find C.attrs a with
    | some (.str t) => s == t
    | _ => false
  | none => (find C.attrs a).isNone

/-- the list of texts in an attribute, or none -/
def listAttrIs (C : Class) (a : Str) : Option (List Str) → Bool
  | some ss => match find C.attrs a with
    | some (.list l) => texts l == some ss
    | _ => false
  | none => (find C.attrs a).isNone

/-- the method `application_type`, or none -/
def appTypeIs (C : Class) (attrs : List (Str × Val)) : Option Slice → Bool
  | some s => match C.methods.lookup (py!"application_type") with
    | some ⟨[p, r], _, .ret e⟩ => p == py!"self" && r == py!"line" && sliceIs1 C attrs r e s
    | _ => false
  | none => (C.methods.lookup (py!"application_type")).isNone

/-- these are not attributes of the object itself -/
def notOwn (attrs : List (Str × Val)) : Bool :=
  (find attrs (py!"cont_idx")).isNone && (find attrs (py!"app_idx")).isNone && (find attrs (py!"name")).isNone &&
    (find attrs (py!"continuations")).isNone && (find attrs (py!"application_type")).isNone

/-- the class is what the model says -/
def classIs (C : Class) (attrs : List (Str × Val)) (d : Definition) : Bool :=
  readIs C attrs d && intAttrIs C (py!"cont_idx") d.contIdx && intAttrIs C (py!"app_idx") d.appIdx &&
    strAttrIs C (py!"name") d.name && listAttrIs C (py!"continuations") d.continuations && appTypeIs C attrs d.appType && notOwn attrs

set_option maxRecDepth 10000 in
theorem classes_checked : registry.all (fun p => match Src.library.classes.lookup p.2.cls with
    | some C => classIs C (Spec.defAttrs p.1) p.2
    | none => false) = true := by decide +kernel

theorem lookup_mem {α : Type} {l : List (Str × α)} {k : Str} {v : α} (h : l.lookup k = some v) : (k, v) ∈ l := by
  induction l with
  | nil => simp at h
  | cons p l ih =>
    obtain ⟨k', v'⟩ := p
    rw [List.lookup_cons] at h
    by_cases hk : k = k'
    · subst hk; simp at h; subst h; simp
    · have : (k == k') = false := by simpa using hk
      rw [this] at h
      exact List.mem_cons_of_mem _ (ih h)

/-- the class of an object in `records` -/
theorem class_of {key : Str} {d : Definition} (h : registry.lookup key = some d) :
    ∃ C, Src.library.classes.lookup d.cls = some C ∧ classIs C (Spec.defAttrs key) d = true := by
  have := List.all_eq_true.mp classes_checked _ (lookup_mem h)
  revert this
  dsimp only
  cases Src.library.classes.lookup d.cls with
  | none => intro h; simp at h
  | some C => exact fun h => ⟨C, rfl, h⟩

/-- does the branch raise an exception in its last case? -/
def noRaise : Branch → Bool
  | .onApp _ _ .raise => false
  | _ => true

theorem noRaise_checked : registry.all (fun p => p.1 == py!"ER" || p.1 == py!"EU" || p.1 == py!"EV" || p.1 == py!"HV" ||
    p.1 == py!"PP" || (noRaise p.2.onPrimary && noRaise p.2.onCont)) = true := by decide +kernel

section
variable [PyUnicode]

theorem makes_fields (sc : Screen) (n : Nat) : MakesFields (Src.library.env sc (n + 1)) := by
  intro name v fn st
  have h1 : Src.library.funcs.lookup (py!"Field") = none := by decide +kernel
  have h2 : Src.library.classes.lookup (py!"Field") = some Src.Field := by rfl
  have h3 : Src.Field.methods.lookup (py!"__init__") = some Src.Field_init := by rfl
  rw [env_call]
  simp [Prog.callFn, h1, h2, h3, runBody, Src.Field_init, bindParams, exec, eval, bindR_ok, St.get, find, St.mutate, put,
    leave_next, selfOf, Spec.fieldVal]

theorem runs_library (sc : Screen) {cls : Str} {C : Class} (h : Src.library.classes.lookup cls = some C) :
    Runs Src.library sc cls C := ⟨h, makes_fields sc⟩

omit [PyUnicode] in
theorem index_error {s : Str} {i : Nat} {e : Exc} (h : index s i = .error e) : e = .indexError := by
  unfold index at h
  split at h <;> simp_all

omit [PyUnicode] in
theorem index_slice {s a : Str} {i : Nat} (h : index s i = .ok a) : a = Py.slice s i (i + 1) := by
  unfold index at h
  split at h
  · next c hc =>
    simp only [Except.ok.injEq] at h
    subst h
    obtain ⟨hi, rfl⟩ := List.getElem?_eq_some_iff.mp hc
    rw [Py.slice, List.drop_take, List.drop_eq_getElem_cons hi, Nat.add_sub_cancel_left]
    rfl
  · simp at h

omit [PyUnicode] in
theorem slice_error {s : Str} {sl : Slice} {e : Exc} (h : sl.eval s = .error e) : e = .indexError := by
  cases sl with
  | «at» i => exact index_error h
  | range i j => simp [Slice.eval] at h
  | pair i j =>
    simp only [Slice.eval, Bind.bind, Except.bind] at h
    cases h1 : index s i with
    | error x => rw [h1] at h; simp at h; subst h; exact index_error h1
    | ok a =>
      rw [h1] at h
      cases h2 : index s j with
      | error x => rw [h2] at h; simp at h; subst h; exact index_error h2
      | ok b => rw [h2] at h; simp at h

omit [PyUnicode] in
theorem layout_error {s : Str} : ∀ {l : Layout} {e : Exc}, readLayout s l = .error e → e = .indexError
  | [], e, h => by simp [readLayout] at h
  | f :: l, e, h => by
    simp only [readLayout, Bind.bind, Except.bind] at h
    cases h1 : Slice.eval s f.slice with
    | error x => rw [h1] at h; simp at h; subst h; exact slice_error h1
    | ok a =>
      rw [h1] at h
      cases h2 : readLayout s l with
      | error x => rw [h2] at h; simp at h; subst h; exact layout_error h2
      | ok b => rw [h2] at h; simp at h

theorem layoutRes_eq (key text : Str) (l : Layout) : layoutRes text l = Spec.fieldsOf key text (readLayout text l) := by
  unfold layoutRes plainRes
  cases h : readLayout text l with
  | ok fs => rfl
  | error e => have := layout_error h; subst this; rfl

/-- the arguments of the exception of the model -/
def faultArgs : Fault → List Str
  | .value ss => ss
  | _ => []

omit [PyUnicode] in
theorem unknown_value (key text : Str) : Fault.value (faultArgs (unknownApplication key text)) = unknownApplication key text := by
  unfold unknownApplication
  repeat' split
  all_goals rfl

theorem branchRes_eq (key text : Str) (br : Branch) :
    branchRes text (fun _ => faultArgs (unknownApplication key text)) br = Spec.fieldsOf key text (br.run text) := by
  cases br with
  | always l => exact layoutRes_eq key text l
  | onApp sel cs o =>
    simp only [branchRes, Branch.run, Bind.bind, Except.bind]
    cases h : sel.eval text with
    | error e => have := slice_error h; subst this; rfl
    | ok app =>
      simp only [casesRes]
      cases cs.lookup app with
      | some l => exact layoutRes_eq key text l
      | none =>
        cases o with
        | empty => rfl
        | raise => simp only [Spec.fieldsOf, unknown_value]
        | layout l => exact layoutRes_eq key text l

omit [PyUnicode] in
theorem raises {key : Str} {d : Definition} (hk : registry.lookup key = some d) {C : Class}
    (hC : Src.library.classes.lookup d.cls = some C) {line : Str} {ds : List (Str × Val)} {b : Stmt}
    (hm : C.methods.lookup (py!"read") = some ⟨[py!"self", line, py!"primary"], ds, b⟩) {text : Str} {primary : Bool} :
    ∀ sel cs, (if primary then d.onPrimary else d.onCont) = .onApp sel cs .raise → ∀ app, sel.eval text = .ok app →
      ((matchOf primary b).bind fun p => raiseArgs p.2).bind (raisedText C (Spec.defAttrs key) line sel app text) =
        some (faultArgs (unknownApplication key text)) := by
  intro sel cs hb app ha
  have hc := List.all_eq_true.mp noRaise_checked _ (lookup_mem hk)
  simp only [Bool.or_eq_true, beq_iff_eq, Bool.and_eq_true] at hc
  rcases hc with ((((rfl | rfl) | rfl) | rfl) | rfl) | ⟨h1, h2⟩
  · have : registry.lookup (py!"ER") = some EnrouteAirways.definition := by rfl
    rw [this] at hk; simp only [Option.some.injEq] at hk; subst hk
    have : Src.library.classes.lookup EnrouteAirways.definition.cls = some Src.EnrouteAirways := by rfl
    rw [this] at hC; simp only [Option.some.injEq] at hC; subst hC
    have : Src.EnrouteAirways.methods.lookup (py!"read") = some Src.EnrouteAirways_read := by rfl
    rw [this] at hm; simp only [Option.some.injEq, Src.EnrouteAirways_read, Func.mk.injEq, List.cons.injEq] at hm
    obtain ⟨⟨-, rfl, -⟩, -, rfl⟩ := hm
    cases primary
    · rfl
    · simp [EnrouteAirways.definition] at hb
  · have : registry.lookup (py!"EU") = some EnrouteAirwaysRestriction.definition := by rfl
    rw [this] at hk; simp only [Option.some.injEq] at hk; subst hk
    have : Src.library.classes.lookup EnrouteAirwaysRestriction.definition.cls = some Src.EnrouteAirwaysRestriction := by rfl
    rw [this] at hC; simp only [Option.some.injEq] at hC; subst hC
    have : Src.EnrouteAirwaysRestriction.methods.lookup (py!"read") = some Src.EnrouteAirwaysRestriction_read := by rfl
    rw [this] at hm; simp only [Option.some.injEq, Src.EnrouteAirwaysRestriction_read, Func.mk.injEq, List.cons.injEq] at hm
    obtain ⟨⟨-, rfl, -⟩, -, rfl⟩ := hm
    cases primary <;> rfl
  · have : registry.lookup (py!"EV") = some EnrouteCommunications.definition := by rfl
    rw [this] at hk; simp only [Option.some.injEq] at hk; subst hk
    have : Src.library.classes.lookup EnrouteCommunications.definition.cls = some Src.EnrouteCommunications := by rfl
    rw [this] at hC; simp only [Option.some.injEq] at hC; subst hC
    have : Src.EnrouteCommunications.methods.lookup (py!"read") = some Src.EnrouteCommunications_read := by rfl
    rw [this] at hm; simp only [Option.some.injEq, Src.EnrouteCommunications_read, Func.mk.injEq, List.cons.injEq] at hm
    obtain ⟨⟨-, rfl, -⟩, -, rfl⟩ := hm
    cases primary
    · simp only [EnrouteCommunications.definition, Bool.false_eq_true, if_false, Branch.onApp.injEq] at hb
      obtain ⟨rfl, -⟩ := hb
      have := index_slice ha
      subst this
      simp [matchOf, raiseArgs, raisedText, unknownApplication, faultArgs]
    · simp [EnrouteCommunications.definition] at hb
  · have : registry.lookup (py!"HV") = some HeliportCommunications.definition := by rfl
    rw [this] at hk; simp only [Option.some.injEq] at hk; subst hk
    have : Src.library.classes.lookup HeliportCommunications.definition.cls = some Src.HeliportCommunications := by rfl
    rw [this] at hC; simp only [Option.some.injEq] at hC; subst hC
    have : Src.HeliportCommunications.methods.lookup (py!"read") = some Src.HeliportCommunications_read := by rfl
    rw [this] at hm; simp only [Option.some.injEq, Src.HeliportCommunications_read, Func.mk.injEq, List.cons.injEq] at hm
    obtain ⟨⟨-, rfl, -⟩, -, rfl⟩ := hm
    cases primary
    · rfl
    · simp [HeliportCommunications.definition] at hb
  · have : registry.lookup (py!"PP") = some PathPoint.definition := by rfl
    rw [this] at hk; simp only [Option.some.injEq] at hk; subst hk
    have : Src.library.classes.lookup PathPoint.definition.cls = some Src.PathPoint := by rfl
    rw [this] at hC; simp only [Option.some.injEq] at hC; subst hC
    have : Src.PathPoint.methods.lookup (py!"read") = some Src.PathPoint_read := by rfl
    rw [this] at hm; simp only [Option.some.injEq, Src.PathPoint_read, Func.mk.injEq, List.cons.injEq] at hm
    obtain ⟨⟨-, rfl, -⟩, -, rfl⟩ := hm
    cases primary
    · simp only [PathPoint.definition, Bool.false_eq_true, if_false, Branch.onApp.injEq] at hb
      obtain ⟨rfl, -⟩ := hb
      have := index_slice ha
      subst this
      simp [matchOf, raiseArgs, raisedText, unknownApplication, faultArgs, sliceIs1, Src.PathPoint, find, Spec.defAttrs]
    · simp [PathPoint.definition] at hb
  · cases primary
    · simp only [Bool.false_eq_true, if_false] at hb
      rw [hb] at h2; simp [noRaise] at h2
    · simp only [if_true] at hb
      rw [hb] at h1; simp [noRaise] at h1

/-- `records[key].read(line, primary)` -/
theorem read_definition (sc : Screen) (n : Nat) {key : Str} {d : Definition} (hk : registry.lookup key = some d) (text : Str)
    (primary : Bool) (st : St) :
    (Src.library.env sc (n + 3)).callMethod d.cls (py!"read") (Spec.defVal key d) [.str text, .bool primary] st =
      (Spec.fieldsOf key text (d.read text primary), st, Spec.defVal key d) := by
  obtain ⟨C, hC, hc⟩ := class_of hk
  simp only [classIs, Bool.and_eq_true] at hc
  have hread := hc.1.1.1.1.1.1
  have hm : ∃ line ds b, C.methods.lookup (py!"read") = some ⟨[py!"self", line, py!"primary"], ds, b⟩ := by
    have h := hread
    unfold readIs at h
    simp only [Bool.and_eq_true] at h
    obtain ⟨-, h⟩ := h
    split at h
    · next x line p ds b hm =>
      simp only [Bool.and_eq_true, beq_iff_eq] at h
      obtain ⟨⟨⟨⟨rfl, rfl⟩, -⟩, -⟩, -⟩ := h
      exact ⟨line, ds, b, hm⟩
    · simp at h
  obtain ⟨line, ds, b, hm⟩ := hm
  rw [env_callMethod, Spec.defVal, callMethod_read (n := n) (runs_library sc hC) hm hread (raised := fun _ => faultArgs (unknownApplication key text))
    (raises hk hC hm), branchRes_eq]
  cases primary <;> rfl

end
end Arinc.Lang
