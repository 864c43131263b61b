import Verif.Lemmas.SourceDecode
/-!
# Source of `Record.json`, `Record.hasCont`, `Record()`; the decoders that fields have
-/
namespace Arinc.Lang
open Py

/-! ## The fields of a record have decoders that exist -/

/-- the same, as a test -/
def knownB : DecFn → Bool
  | .ident k => identityFns.contains k
  | _ => true

theorem known_of {fn : DecFn} (h : knownB fn = true) : Known fn := by
  intro k e
  subst e
  simpa [knownB] using h

/-- the layouts of a branch -/
def branchLayouts : Branch → List Layout
  | .always l => [l]
  | .onApp _ cs o => cs.map (·.2) ++ match o with | .layout l => [l] | _ => []

theorem known_checked : registry.all (fun p => (branchLayouts p.2.onPrimary ++ branchLayouts p.2.onCont).all fun l =>
    l.all fun f => knownB f.dec) = true := by decide +kernel

theorem known_layout {r : Str} : ∀ {l : Layout} {fs : List Field}, readLayout r l = .ok fs → (l.all fun f => knownB f.dec) = true →
    ∀ f ∈ fs, Known f.dec
  | [], fs, h, _, f, hf => by simp [readLayout] at h; subst h; simp at hf
  | s :: l, fs, h, hl, f, hf => by
    simp only [readLayout, Bind.bind, Except.bind] at h
    simp only [List.all_cons, Bool.and_eq_true] at hl
    cases h1 : s.slice.eval r with
    | error e => rw [h1] at h; simp at h
    | ok v =>
      rw [h1] at h
      cases h2 : readLayout r l with
      | error e => rw [h2] at h; simp at h
      | ok gs =>
        rw [h2] at h
        simp only [Except.ok.injEq] at h
        subst h
        rcases List.mem_cons.mp hf with rfl | hf
        · exact known_of hl.1
        · exact known_layout h2 hl.2 f hf

theorem known_branch {r : Str} {b : Branch} {fs : List Field} (h : b.run r = .ok fs)
    (hb : ((branchLayouts b).all fun l => l.all fun f => knownB f.dec) = true) : ∀ f ∈ fs, Known f.dec := by
  rw [List.all_eq_true] at hb
  cases b with
  | always l => exact known_layout h (hb l (by simp [branchLayouts]))
  | onApp sel cs o =>
    simp only [Branch.run, Bind.bind, Except.bind] at h
    cases h1 : sel.eval r with
    | error e => rw [h1] at h; simp at h
    | ok app =>
      rw [h1] at h
      simp only at h
      split at h
      · next l hl =>
        refine known_layout h (hb l ?_)
        have := lookup_mem hl
        simp only [branchLayouts, List.mem_append, List.mem_map]
        exact .inl ⟨_, this, rfl⟩
      · split at h
        · simp only [Except.ok.injEq] at h; subst h; simp
        · simp at h
        · exact known_layout h (hb _ (by simp [branchLayouts]))

theorem known_definition {key line : Str} {d : Definition} (hk : registry.lookup key = some d) {primary : Bool} {fs : List Field}
    (h : d.read line primary = .ok fs) : ∀ f ∈ fs, Known f.dec := by
  have hc := List.all_eq_true.mp known_checked _ (lookup_mem hk)
  simp only [List.all_append, Bool.and_eq_true] at hc
  unfold Definition.read at h
  split at h
  · exact known_branch h hc.1
  · exact known_branch h hc.2

section
variable [PyUnicode]

theorem known_readFields {key line : Str} {d : Definition} (hk : registry.lookup key = some d) {self : Record}
    (hs : ∀ f ∈ self.fields, Known f.dec) : ∀ f ∈ (self.readFields d line).obj.fields, Known f.dec := by
  unfold Record.readFields
  cases h : d.read line self.primary with
  | error e => exact hs
  | ok fs =>
    simp only
    split <;> exact known_definition hk h

theorem known_checkApplication {key line : Str} {d : Definition} (hk : registry.lookup key = some d) {self : Record}
    (hs : ∀ f ∈ self.fields, Known f.dec) : ∀ f ∈ (self.checkApplication d line).obj.fields, Known f.dec := by
  unfold Record.checkApplication
  repeat' split
  all_goals first
    | exact known_readFields hk hs
    | exact hs

theorem known_read (self : Record) (hs : ∀ f ∈ self.fields, Known f.dec) (line : Str) :
    ∀ f ∈ (self.read line).obj.fields, Known f.dec := by
  have key : ∀ s : Record, (∀ f ∈ s.fields, Known f.dec) → ∀ f ∈ (s.readDefinition line).obj.fields, Known f.dec := by
    intro s hs
    unfold Record.readDefinition
    split
    · exact hs
    · next d hd =>
      unfold Record.readWith
      simp only
      split
      · split
        · exact hs
        · split
          · split <;> exact hs
          · exact known_checkApplication hd hs
      · exact known_readFields hd hs
  unfold Record.read
  simp only
  split
  · exact hs
  · split
    · exact hs
    · split
      · exact key _ hs
      · split
        · exact key _ hs
        · exact hs

/-! ## `Record()`, `hasCont`, `json` -/

theorem lookup_fn_Record : Src.library.funcs.lookup (py!"Record") = none := by decide +kernel

theorem call_Record (sc : Screen) (n : Nat) (st : St) :
    (Src.library.env sc (n + 1)).call (py!"Record") [] st = (.ok (Spec.recordVal Record.new), st) := by
  rw [env_call, Prog.callFn]
  simp only [lookup_fn_Record, lookup_Record]
  rfl

theorem call_hasCont (sc : Screen) (n : Nat) (self : Record) (st : St) :
    (Src.library.env sc (n + 2)).callMethod (py!"Record") (py!"hasCont") (Spec.recordVal self) [] st =
      (.ok (.bool self.hasCont), st, Spec.recordVal self) := by
  obtain ⟨i, r, c, f, dd⟩ := self
  generalize hdv : (match dd with
      | none => .int (-1)
      | some d => Spec.defVal i d : Val) = dv
  have hv : Spec.recordVal ⟨i, r, c, f, dd⟩ = rec5 i r c (.list (f.map Spec.fieldVal)) dv := by subst hdv; rfl
  have hd : dv = .int (-1) ∨ ∃ cls attrs, dv = .obj cls attrs := by
    subst hdv
    cases dd with
    | none => exact .inl rfl
    | some d => exact .inr ⟨_, _, rfl⟩
  have hp : Record.primary ⟨i, r, c, f, dd⟩ = isPrimary c dv := by subst hdv; cases dd <;> rfl
  have hprim := eval_primary (sc := sc) (n := n) (st := st) (i := i) (r := r) (c := c) (f := .list (f.map Spec.fieldVal)) (rest := []) hd
  have hb : exec (Src.library.env sc (n + 1)) Src.Record_hasCont.body (inMethod st (rec5 i r c (.list (f.map Spec.fieldVal)) dv) []) =
      (.ok (.ret (.bool (Record.hasCont ⟨i, r, c, f, dd⟩))), inMethod st (rec5 i r c (.list (f.map Spec.fieldVal)) dv) []) := by
    unfold Record.hasCont
    rw [hp]
    cases h : isPrimary c dv
    · rw [h] at hprim
      exact seq_ret (ite_yes (is_bool hprim) rfl rfl)
    · rw [h] at hprim
      refine seq_next (ite_no (is_bool hprim) rfl rfl) (ret_ok ?_)
      rw [cmp_of eval_continuation rfl]
      rfl
  rw [hv, env_callMethod, Prog.callMethod]
  simp only [lookup_Record, method_hasCont, Option.bind, runBody, bindParams, Option.map,
    show Src.Record_hasCont.params = [py!"self"] from rfl]
  unfold inMethod at hb
  rw [hb]
  rfl

omit [PyUnicode] in
theorem put_items (d : List (Str × Str)) (k v : Str) : put (Spec.items d) k (.str v) = Spec.items (dictUpdate d k v) := by
  induction d with
  | nil => rfl
  | cons p d ih =>
    obtain ⟨k', v'⟩ := p
    by_cases h : k' = k
    · simp [Spec.items, put, dictUpdate, h]
    · simp only [Spec.items, List.map_cons, put, dictUpdate, h, if_false] at ih ⊢
      rw [ih]

omit [PyUnicode] in
theorem textItems_items (d : List (Str × Str)) : textItems (Spec.items d) = some d := by
  induction d with
  | nil => rfl
  | cons p d ih =>
    obtain ⟨k, v⟩ := p
    simp only [Spec.items, List.map_cons, textItems] at ih ⊢
    rw [ih]
    rfl

/-- the body of the loop, record.py:178 -/
def updateStep : Stmt :=
  match dropS 1 Src.Record_json.body with
  | .seq (.forIn _ _ b) _ => b
  | s => s

/-- the variables of `json` in the loop -/
def jsonVars (o s : Val) (d : List (Str × Str)) (x : List (Str × Val)) : List (Str × Val) :=
  (py!"output", o) :: (py!"single_line", s) :: (py!"d", .dict .none (Spec.items d)) :: x

theorem updates (E : Env) (self o s : Val) (st : St) : ∀ (fs : List Field) (d : List (Str × Str)) (x : List (Str × Val)),
    (x = [] ∨ ∃ v, x = [(py!"field", v)]) → ∃ x', (x' = [] ∨ ∃ v, x' = [(py!"field", v)]) ∧
    loop (fun v st => exec E updateStep (st.assign (py!"field") v)) (fs.map Spec.fieldVal) (inMethod st self (jsonVars o s d x)) =
      (.ok .next, inMethod st self (jsonVars o s (fs.foldl (fun d f => dictUpdate d f.name f.value) d) x'))
  | [], d, x, hx => ⟨x, hx, rfl⟩
  | f :: fs, d, x, hx => by
    obtain ⟨x', hx', ih⟩ := updates E self o s st fs (dictUpdate d f.name f.value) [(py!"field", Spec.fieldVal f)] (.inr ⟨_, rfl⟩)
    refine ⟨x', hx', ?_⟩
    have hstep : exec E updateStep ((inMethod st self (jsonVars o s d x)).assign (py!"field") (Spec.fieldVal f)) =
        (.ok .next, inMethod st self (jsonVars o s (dictUpdate d f.name f.value) [(py!"field", Spec.fieldVal f)])) := by
      have hass : (inMethod st self (jsonVars o s d x)).assign (py!"field") (Spec.fieldVal f) =
          inMethod st self (jsonVars o s d [(py!"field", Spec.fieldVal f)]) := by
        rcases hx with rfl | ⟨v, rfl⟩ <;> rfl
      rw [hass]
      have h : exec E updateStep (inMethod st self (jsonVars o s d [(py!"field", Spec.fieldVal f)])) =
          (.ok .next, inMethod st self ((py!"output", o) :: (py!"single_line", s) ::
            (py!"d", .dict .none (put (Spec.items d) f.name (.str f.value))) :: [(py!"field", Spec.fieldVal f)])) := rfl
      rw [h, put_items]
      rfl
    rw [List.map_cons, loop, hstep, bindR_ok]
    exact ih

theorem call_json (sc : Screen) (n : Nat) (self : Record) (o s : Val) {single : Bool} (hs : truth s = some single) (st : St) :
    ∃ texts, (self.json (Spec.isTrue o) single).2.mapM (Event.text sc) = some texts ∧
      (Src.library.env sc (n + 1)).callMethod (py!"Record") (py!"json") (Spec.recordVal self) [o, s] st =
        (.ok (.str (self.json (Spec.isTrue o) single).1), { st with out := st.out ++ texts }, Spec.recordVal self) := by
  obtain ⟨x', hx', hl⟩ := updates (Src.library.env sc n) (Spec.recordVal self) o s st self.fields [] [] (.inl rfl)
  generalize hE : Src.library.env sc n = E at hl
  have hloop : exec E (match dropS 1 Src.Record_json.body with | .seq a _ => a | s => s) (inMethod st (Spec.recordVal self) (jsonVars o s [] [])) =
      (.ok .next, inMethod st (Spec.recordVal self) (jsonVars o s self.dict x')) := by
    rw [Record.dict, ← hl]
    rfl
  have hif : ∀ x, eval E (.name (py!"single_line")) (inMethod st (Spec.recordVal self) (jsonVars o s self.dict x)) =
      (.ok s, inMethod st (Spec.recordVal self) (jsonVars o s self.dict x)) := fun _ => rfl
  have hdata : ∃ x'', find x'' (py!"data") = some (.str (if single then dumps self.dict else dumpsPretty self.dict)) ∧
      exec E (match dropS 2 Src.Record_json.body with | .seq a _ => a | s => s) (inMethod st (Spec.recordVal self) (jsonVars o s self.dict x')) =
        (.ok .next, inMethod st (Spec.recordVal self) (jsonVars o s self.dict x'')) := by
    refine ⟨put x' (py!"data") (.str (if single then dumps self.dict else dumpsPretty self.dict)), find_put _ _ _, ?_⟩
    have hd : eval E (.name (py!"d")) (inMethod st (Spec.recordVal self) (jsonVars o s self.dict x')) =
      (.ok (.dict .none (Spec.items self.dict)), inMethod st (Spec.recordVal self) (jsonVars o s self.dict x')) := rfl
    cases single
    · refine ite_no (hif x') hs (assign_ok (v := .str (dumpsPretty self.dict)) (st' := inMethod st (Spec.recordVal self) (jsonVars o s self.dict x')) ?_)
      rw [eval, evals, hd, bindR_ok, evals, bindR_ok, bindR_ok]
      simp only [callPrim, textItems_items, Option.map, asText]
    · refine ite_yes (hif x') hs (assign_ok (v := .str (dumps self.dict)) (st' := inMethod st (Spec.recordVal self) (jsonVars o s self.dict x')) ?_)
      rw [eval, evals, hd, bindR_ok, evals, bindR_ok, bindR_ok]
      simp only [callPrim, textItems_items, Option.map, asText]
  obtain ⟨x'', hx'', hdata⟩ := hdata
  unfold Record.json
  generalize (if single then dumps self.dict else dumpsPretty self.dict) = data at hx''
  have hgo : (inMethod st (Spec.recordVal self) (jsonVars o s self.dict x'')).get (py!"output") = some o := rfl
  have hout := eval_is_true (E := E) hgo
  have hname : ∀ st, eval E (.name (py!"data")) (inMethod st (Spec.recordVal self) (jsonVars o s self.dict x'')) =
      (.ok (.str data), inMethod st (Spec.recordVal self) (jsonVars o s self.dict x'')) := by
    intro st
    refine eval_local ?_ (by decide)
    simpa [jsonVars, find] using hx''
  have hcall : ∀ {st' : St} {v : Val} {vars : List (Str × Val)}, exec E Src.Record_json.body
      (inMethod st (Spec.recordVal self) [(py!"output", o), (py!"single_line", s)]) = (.ok (.ret v), inMethod st' (Spec.recordVal self) vars) →
      (Src.library.env sc (n + 1)).callMethod (py!"Record") (py!"json") (Spec.recordVal self) [o, s] st =
        (.ok v, { st' with locals := st.locals, frozen := st.frozen }, Spec.recordVal self) := by
    intro st' v vars h
    rw [env_callMethod, Prog.callMethod, hE]
    simp only [lookup_Record, method_json, Option.bind, runBody, bindParams, Option.map,
      show Src.Record_json.params = [py!"self", py!"output", py!"single_line"] from rfl]
    unfold inMethod at h
    rw [h]
    rfl
  cases ho : Spec.isTrue o
  · rw [ho] at hout
    refine ⟨[], rfl, ?_⟩
    rw [hcall (seq_next (st' := inMethod st (Spec.recordVal self) (jsonVars o s [] [])) rfl (seq_next hloop (seq_next hdata
      (seq_next (ite_no hout rfl rfl) (ret_ok (hname st))))))]
    simp
  · rw [ho] at hout
    refine ⟨[data], rfl, ?_⟩
    rw [hcall (seq_next (st' := inMethod st (Spec.recordVal self) (jsonVars o s [] [])) rfl (seq_next hloop (seq_next hdata
      (seq_next (ite_yes hout rfl (print_in (hname st))) (ret_ok (hname _))))))]

end
end Arinc.Lang
