import Verif.Lemmas.SourceRead
import Verif.Lemmas.SourceText
import Verif.Lemmas.Fault
/-!
# Source of `Record.decode`
-/
namespace Arinc.Lang
open Py

theorem lookup_decoder (fn : DecFn) : Src.library.funcs.lookup (Spec.nameOf fn) = Src.decoderFuncs.lookup (Spec.nameOf fn) := by
  have h : (Spec.nameOf fn).head? = some 102 := by cases fn <;> rfl
  have key : ∀ s : Str, s.head? ≠ some 102 → (Spec.nameOf fn == s) = false := by
    intro s hs
    rw [beq_eq_false_iff_ne]
    intro e
    rw [← e] at hs
    exact hs h
  show List.lookup _ ([_, _, _, _] ++ Src.decoderFuncs) = _
  simp only [List.cons_append, List.nil_append, List.lookup_cons]
  rw [key (py!"parse") (by decide), key (py!"search") (by decide), key (py!"read_file") (by decide), key (py!"read_folder") (by decide)]

/-- the decoder exists -/
def Known (fn : DecFn) : Prop := ∀ k, fn = .ident k → k ∈ identityFns

theorem put_put (l : List (Str × Val)) (k : Str) (v w : Val) : put (put l k v) k w = put l k w := by
  induction l with
  | nil => simp [put]
  | cons p l ih =>
    obtain ⟨k', v'⟩ := p
    by_cases h : k' = k
    · simp [put, h]
    · simp [put, h, ih]

theorem after_after (st : St) (l1 l2 : Legs) (t1 t2 : List Str) :
    Spec.stAfter (Spec.stAfter st l1 t1) l2 t2 = Spec.stAfter st l2 (t1 ++ t2) := by
  simp [Spec.stAfter, put_put]

theorem after_legs (st : St) (l : Legs) (t : List Str) :
    find (Spec.stAfter st l t).globals (py!"LegTypeDesc") = some (Spec.legsVal l) := find_put _ _ _

theorem after_records {st : St} {v : Val} (l : Legs) (t : List Str) (h : find st.globals (py!"records") = some v) :
    find (Spec.stAfter st l t).globals (py!"records") = some v := by
  rw [← h]; exact find_put_ne _ _ _ _ (by decide)

theorem mapM_append {α β : Type} (f : α → Option β) {a b : List α} {x y : List β} (ha : a.mapM f = some x) (hb : b.mapM f = some y) :
    (a ++ b).mapM f = some (x ++ y) := by
  rw [List.mapM_append, ha, hb]; rfl

section
variable [PyUnicode]

theorem method_field : (Src.library.classes.lookup (py!"Field")).bind (fun C => C.methods.lookup (py!"decode")) = some Src.Field_decode := by rfl

/-- `field.decode(record)` -/
theorem call_field (sc : Screen) (n : Nat) (f : Field) (hfn : Known f.dec) (cls : Str) (attrs : List (Str × Val)) (rec : RecInfo)
    (legs : Legs) (st : St) (hident : find attrs (py!"ident") = some (.str rec.ident)) (hraw : find attrs (py!"raw") = some (.str rec.raw))
    (hlegs : find st.globals (py!"LegTypeDesc") = some (Spec.legsVal legs)) :
    ∃ texts, (runDec f.dec f.value rec legs).out.mapM (Event.text sc) = some texts ∧
      (Src.library.env sc (n + 2)).callMethod (py!"Field") (py!"decode") (Spec.fieldVal f) [.obj cls attrs] st =
        (Spec.result (runFault sc.printable f.dec f.value rec legs), Spec.stAfter st (runDec f.dec f.value rec legs).legs texts,
          Spec.fieldVal f) := by
  let st1 : St := { st with locals := [(py!"self", Spec.fieldVal f), (py!"record", .obj cls attrs)] }
  obtain ⟨F, ts, hF, ht, h⟩ := src_all (Src.library.env sc n) f.value st1 f.dec cls attrs rec legs hfn hident hraw hlegs
  rw [env_sc] at ht h
  refine ⟨ts, ht, ?_⟩
  rw [env_callMethod, Prog.callMethod]
  simp only [method_field, runBody, Src.Field_decode, bindParams, Option.map]
  have hc : eval (Src.library.env sc (n + 1)) (.invoke (.name (py!"self")) (py!"decode_fn")
      (.cons (.attr (.name (py!"self")) (py!"value")) (.cons (.name (py!"record")) .nil))) st1 =
      (Src.library.env sc (n + 1)).call (Spec.nameOf f.dec) [.str f.value, .obj cls attrs] st1 := rfl
  have hcall : (Src.library.env sc (n + 1)).call (Spec.nameOf f.dec) [.str f.value, .obj cls attrs] st1 =
      (Spec.result (runFault sc.printable f.dec f.value rec legs), Spec.stAfter st1 (runDec f.dec f.value rec legs).legs ts) := by
    rw [env_call, Prog.callFn, lookup_decoder, hF]
    exact h
  rw [hcall] at hc
  rw [exec, show ({ st with locals := [(py!"self", Spec.fieldVal f), (py!"record", .obj cls attrs)] } : St) = st1 from rfl, hc]
  cases hr : runFault sc.printable f.dec f.value rec legs <;>
    simp [Spec.result, Spec.stAfter, bindR_ok, bindR_error, leave_ret, leave_error, selfOf, st1, find]

theorem cell_value (v : PyVal) : cell (Spec.value v) = some v := by cases v <;> rfl

/-- the body of the loop, record.py:170 -/
def addRow : Stmt :=
  match dropS 2 Src.Record_decode.body with
  | .seq (.forIn _ _ b) _ => b
  | s => s

/-- the variables of `decode` in the loop -/
def rowVars (o : Val) (rows : List Row) (x : List (Str × Val)) : List (Str × Val) :=
  (py!"output", o) :: (py!"table", .table rows) :: x

theorem add_row (sc : Screen) (n : Nat) (self : Record) (o : Val) (f : Field) (hfn : Known f.dec) (rows : List Row) (legs : Legs) (st : St)
    (hlegs : find st.globals (py!"LegTypeDesc") = some (Spec.legsVal legs)) :
    ∃ texts, (runDec f.dec f.value self.info legs).out.mapM (Event.text sc) = some texts ∧
      exec (Src.library.env sc (n + 2)) addRow (inMethod st (Spec.recordVal self) (rowVars o rows [(py!"field", Spec.fieldVal f)])) =
        match runFault sc.printable f.dec f.value self.info legs with
        | .ok v => (.ok .next, inMethod (Spec.stAfter st (runDec f.dec f.value self.info legs).legs texts) (Spec.recordVal self)
            (rowVars o (rows ++ [⟨f.name, py!"'" ++ f.value ++ py!"'", v⟩]) [(py!"field", Spec.fieldVal f)]))
        | .error e => (.error (.fault e), inMethod (Spec.stAfter st (runDec f.dec f.value self.info legs).legs texts) (Spec.recordVal self)
            (rowVars o rows [(py!"field", Spec.fieldVal f)])) := by
  obtain ⟨ts, h1, h2⟩ := call_field sc n f hfn (py!"Record") (Spec.attrsOf (Spec.recordVal self)) self.info legs
    (inMethod st (Spec.recordVal self) (rowVars o rows [(py!"field", Spec.fieldVal f)])) rfl rfl hlegs
  refine ⟨ts, h1, ?_⟩
  generalize hE : Src.library.env sc (n + 2) = E at h2
  generalize hS : inMethod st (Spec.recordVal self) (rowVars o rows [(py!"field", Spec.fieldVal f)]) = S at h2
  have e1 : eval E (.name (py!"table")) S = (.ok (.table rows), S) := by subst hS; rfl
  have e2 : eval E (.attr (.name (py!"field")) (py!"name")) S = (.ok (.str f.name), S) := by subst hS; rfl
  have e3 : eval E (.join (.cons (.const (.str (py!"'"))) (.cons (.fmt .plain (.attr (.name (py!"field")) (py!"value"))) (.cons (.const (.str (py!"'"))) .nil)))) S =
      (.ok (.str (py!"'" ++ f.value ++ py!"'")), S) := by
    have e0 : eval E (.attr (.name (py!"field")) (py!"value")) S = (.ok (.str f.value), S) := by subst hS; rfl
    rw [eval, evals, eval, bindR_ok, evals, eval, e0, bindR_ok]
    simp [format, plainText, asText, bindR_ok, evals, eval, texts]
  have hmut : (Spec.stAfter S (runDec f.dec f.value self.info legs).legs ts).mutate (py!"field") (Spec.fieldVal f) =
      Spec.stAfter S (runDec f.dec f.value self.info legs).legs ts := mutate_same _ _ (by subst hS; rfl)
  have e4 : eval E (.invoke (.name (py!"field")) (py!"decode") (.cons (.name (py!"self")) .nil)) S =
      (Spec.result (runFault sc.printable f.dec f.value self.info legs), Spec.stAfter S (runDec f.dec f.value self.info legs).legs ts) := by
    have g1 : eval E (.name (py!"field")) S = (.ok (Spec.fieldVal f), S) := by subst hS; rfl
    have g2 : eval E (.name (py!"self")) S = (.ok (Spec.recordVal self), S) := by subst hS; rfl
    rw [eval, g1, bindR_ok, evals, g2, bindR_ok, evals, bindR_ok]
    simp only [bindR_ok]
    rw [Spec.fieldVal]
    simp only [show find [(py!"name", Val.str f.name), (py!"value", .str f.value), (py!"decode_fn", .fn (Spec.nameOf f.dec))] (py!"decode") = none from rfl]
    have hfz : ({ S with frozen := S.frozen || !isName (.name (py!"field")) } : St) = S := by simp [isName]
    rw [hfz]
    refine (congrArg (fun r => applyMethod (.name (py!"field")) r S.frozen) h2).trans ?_
    simp only [applyMethod]
    exact Prod.ext rfl hmut
  unfold addRow
  simp only [dropS, Src.Record_decode]
  rw [exec, eval, e1, bindR_ok]
  simp only [evals]
  rw [eval.eq_12]
  simp only [evals]
  rw [e2, bindR_ok, e3, bindR_ok, e4]
  cases hr : runFault sc.printable f.dec f.value self.info legs with
  | error e => subst hS; rfl
  | ok v =>
    simp only [Spec.result, bindR_ok, callMeth, cell_value, Option.map, applyMeth]
    subst hS
    rfl

/-- the loop -/
theorem add_rows (sc : Screen) (n : Nat) (self : Record) (o : Val) : ∀ (fs : List Field), (∀ f ∈ fs, Known f.dec) →
    ∀ (rows : List Row) (legs : Legs) (st : St) (x : List (Str × Val)), (x = [] ∨ ∃ v, x = [(py!"field", v)]) →
    find st.globals (py!"LegTypeDesc") = some (Spec.legsVal legs) →
    ∃ texts x', (x' = [] ∨ ∃ v, x' = [(py!"field", v)]) ∧ (decodeRows self.info fs legs).out.mapM (Event.text sc) = some texts ∧
      match decodeRowsF sc.printable self.info fs legs with
      | .ok rs => loop (fun v st => exec (Src.library.env sc (n + 2)) addRow (st.assign (py!"field") v)) (fs.map Spec.fieldVal)
          (inMethod st (Spec.recordVal self) (rowVars o rows x)) =
          (.ok .next, inMethod (Spec.stAfter st (decodeRows self.info fs legs).legs texts) (Spec.recordVal self) (rowVars o (rows ++ rs) x'))
      | .error e => ∃ rows', loop (fun v st => exec (Src.library.env sc (n + 2)) addRow (st.assign (py!"field") v)) (fs.map Spec.fieldVal)
          (inMethod st (Spec.recordVal self) (rowVars o rows x)) =
          (.error (.fault e), inMethod (Spec.stAfter st (decodeRows self.info fs legs).legs texts) (Spec.recordVal self) (rowVars o rows' x')) := by
  intro fs
  induction fs with
  | nil =>
    intro _ rows legs st x hx hl
    refine ⟨[], x, hx, rfl, ?_⟩
    simp only [decodeRowsF, decodeRows, loop, List.map_nil, List.append_nil]
    rw [after_same st legs hl]
  | cons f fs ih =>
    intro hk rows legs st x hx hl
    obtain ⟨ts, h1, h2⟩ := add_row sc n self o f (hk f (by simp)) rows legs st hl
    have hp := plainly_run sc.printable f.dec f.value self.info legs
    have hass : (inMethod st (Spec.recordVal self) (rowVars o rows x)).assign (py!"field") (Spec.fieldVal f) =
        inMethod st (Spec.recordVal self) (rowVars o rows [(py!"field", Spec.fieldVal f)]) := by
      rcases hx with rfl | ⟨v, rfl⟩ <;> rfl
    simp only [decodeRowsF, List.map_cons, loop]
    rw [hass, h2]
    cases hr : runFault sc.printable f.dec f.value self.info legs with
    | error e =>
      rw [hr] at hp
      have hd : (runDec f.dec f.value self.info legs).res = .error e.exc := hp.symm
      refine ⟨ts, [(py!"field", Spec.fieldVal f)], .inr ⟨_, rfl⟩, ?_, ?_⟩
      · simp only [decodeRows, hd]; exact h1
      · refine ⟨rows, ?_⟩
        simp only [decodeRows, hd, bindR_error]
    | ok v =>
      rw [hr] at hp
      have hd : (runDec f.dec f.value self.info legs).res = .ok v := hp.symm
      obtain ⟨ts', x', hx', g1, g2⟩ := ih (fun g hg => hk g (by simp [hg])) (rows ++ [⟨f.name, py!"'" ++ f.value ++ py!"'", v⟩])
        (runDec f.dec f.value self.info legs).legs (Spec.stAfter st (runDec f.dec f.value self.info legs).legs ts)
        [(py!"field", Spec.fieldVal f)] (.inr ⟨_, rfl⟩) (after_legs _ _ _)
      refine ⟨ts ++ ts', x', hx', ?_, ?_⟩
      · simp only [decodeRows, hd]
        exact mapM_append _ h1 g1
      · simp only [decodeRows, hd, bindR_ok]
        cases hrest : decodeRowsF sc.printable self.info fs (runDec f.dec f.value self.info legs).legs with
        | error e =>
          rw [hrest] at g2
          obtain ⟨rows', g2⟩ := g2
          exact ⟨rows', by rw [g2, after_after]⟩
        | ok rs =>
          rw [hrest] at g2
          simp only [Except.map] at g2 ⊢
          rw [g2, after_after, List.append_assoc]
          rfl

theorem eval_is_true {E : Env} {x : Str} {v : Val} {st : St} (h : st.get x = some v) :
    eval E (.cmp .is (.name x) (.const (.bool true))) st = (.ok (.bool (Spec.isTrue v)), st) := by
  have e : eval E (.name x) st = (.ok v, st) := by rw [eval, h]
  rw [cmp_of e rfl]
  cases v <;> simp [compare, answer, Spec.isTrue]

theorem call_decode (sc : Screen) (n : Nat) (self : Record) (hk : ∀ f ∈ self.fields, Known f.dec) (o : Val) (legs : Legs) (st : St)
    (hlegs : find st.globals (py!"LegTypeDesc") = some (Spec.legsVal legs)) :
    ∃ texts, (self.decode (Spec.isTrue o) legs).out.mapM (Event.text sc) = some texts ∧
      (Src.library.env sc (n + 3)).callMethod (py!"Record") (py!"decode") (Spec.recordVal self) [o] st =
        (Spec.tableRes sc (self.decodeF sc.printable legs), Spec.stAfter st (self.decode (Spec.isTrue o) legs).legs texts, Spec.recordVal self) := by
  obtain ⟨ts, x', hx', h1, h2⟩ := add_rows sc n self o self.fields hk [] legs st [] (.inl rfl) hlegs
  have hp := plainly_rows sc.printable self.info self.fields legs
  have hcall : ∀ {res : Res Flow}, exec (Src.library.env sc (n + 2)) (dropS 2 Src.Record_decode.body)
      (inMethod st (Spec.recordVal self) (rowVars o [] [])) = res →
      (Src.library.env sc (n + 3)).callMethod (py!"Record") (py!"decode") (Spec.recordVal self) [o] st =
        ((leave st res).1, (leave st res).2.1, selfOf (leave st res).2.2 (Spec.recordVal self)) := by
    intro res h
    have hb : exec (Src.library.env sc (n + 2)) Src.Record_decode.body (inMethod st (Spec.recordVal self) [(py!"output", o)]) = res :=
      seq_next (assign_ok (v := .table []) (st' := inMethod st (Spec.recordVal self) [(py!"output", o)]) rfl) (seq_next rfl h)
    rw [env_callMethod, Prog.callMethod]
    simp only [lookup_Record, method_decode, Option.bind, runBody, bindParams, Option.map,
      show Src.Record_decode.params = [py!"self", py!"output"] from rfl]
    unfold inMethod at hb
    rw [hb]
  have hloop : ∀ {res : Res Flow}, loop (fun v st => exec (Src.library.env sc (n + 2)) addRow (st.assign (py!"field") v)) (self.fields.map Spec.fieldVal)
          (inMethod st (Spec.recordVal self) (rowVars o [] [])) = res →
      exec (Src.library.env sc (n + 2)) (match dropS 2 Src.Record_decode.body with | .seq a _ => a | s => s)
        (inMethod st (Spec.recordVal self) (rowVars o [] [])) = res := by
    intro res h
    rw [← h]
    rfl
  unfold Record.decode Record.decodeF
  cases hr : decodeRowsF sc.printable self.info self.fields legs with
  | error e =>
    rw [hr] at h2 hp
    obtain ⟨rows', h2⟩ := h2
    have hd : (decodeRows self.info self.fields legs).res = .error e.exc := hp.symm
    simp only [hd]
    refine ⟨ts, h1, ?_⟩
    rw [hcall (seq_error (hloop h2))]
    rfl
  | ok rows =>
    rw [hr] at h2 hp
    have hd : (decodeRows self.info self.fields legs).res = .ok rows := hp.symm
    obtain ⟨cells, hc⟩ := rows_shown _ _ _ _ hd
    have hs : shownTable sc.width rows = some (tableString sc.width tableHead cells) := by simp [shownTable, hc]
    generalize tableString sc.width tableHead cells = t at hs
    simp only [hd, List.nil_append] at h2 ⊢
    have hgo : (inMethod (Spec.stAfter st (decodeRows self.info self.fields legs).legs ts) (Spec.recordVal self) (rowVars o rows x')).get (py!"output") = some o := rfl
    have hif := eval_is_true (E := Src.library.env sc (n + 2)) hgo
    have hret : ∀ S : St, S.get (py!"table") = some (.table rows) →
        exec (Src.library.env sc (n + 2)) (.ret (.method (.name (py!"table")) .getString .nil)) S = (.ok (.ret (.str t)), S) := by
      intro S hS
      have e : eval (Src.library.env sc (n + 2)) (.name (py!"table")) S = (.ok (.table rows), S) := by rw [eval, hS]
      refine ret_ok ?_
      rw [eval, e, bindR_ok, evals, bindR_ok]
      simp [callMeth, env_sc, hs, applyMeth]
    cases ho : Spec.isTrue o
    · rw [ho] at hif
      refine ⟨ts, h1, ?_⟩
      rw [hcall (seq_next (hloop h2) (seq_next (ite_no hif rfl rfl) (hret _ rfl)))]
      simp only [Spec.tableRes, hs]
      rfl
    · rw [ho] at hif
      refine ⟨ts ++ [t], mapM_append _ h1 (by simp [Event.text, hs]), ?_⟩
      have hpr : exec (Src.library.env sc (n + 2)) (.expr (.prim .print (.cons (.name (py!"table")) .nil)))
          (inMethod (Spec.stAfter st (decodeRows self.info self.fields legs).legs ts) (Spec.recordVal self) (rowVars o rows x')) =
          (.ok .next, inMethod (Spec.stAfter st (decodeRows self.info self.fields legs).legs (ts ++ [t])) (Spec.recordVal self) (rowVars o rows x')) := by
        have e : eval (Src.library.env sc (n + 2)) (.name (py!"table")) (inMethod (Spec.stAfter st (decodeRows self.info self.fields legs).legs ts) (Spec.recordVal self) (rowVars o rows x')) =
          (.ok (.table rows), inMethod (Spec.stAfter st (decodeRows self.info self.fields legs).legs ts) (Spec.recordVal self) (rowVars o rows x')) := rfl
        rw [exec, eval, evals, e, bindR_ok, evals, bindR_ok, bindR_ok]
        simp [callPrim, plainText, env_sc, hs, bindR_ok, inMethod, Spec.stAfter]
      rw [hcall (seq_next (hloop h2) (seq_next (ite_yes hif rfl hpr) (hret _ rfl)))]
      simp only [Spec.tableRes, hs]
      rfl

end
end Arinc.Lang
