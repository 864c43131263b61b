import Verif.Lemmas.SourceRecord
/-!
# Source of `Record.read`
-/
namespace Arinc.Lang
open Py

theorem attrs_checked : registry.all (fun p => p.2.contIdx.isNone ||
    (p.2.appIdx.isSome && p.2.appType.isSome && p.2.continuations.isSome && p.2.name.isSome)) = true := by decide +kernel

/-- the rest of a sequence of statements -/
def dropS : Nat → Stmt → Stmt
  | 0, s => s
  | n + 1, .seq _ b => dropS n b
  | _ + 1, s => s

/-- how `read` ends -/
def readEnd [PyUnicode] (line : Str) (o : ReadOut) : Except Err Flow :=
  match o.res with
  | .ok b => .ok (.ret (.bool b))
  | .error .valueError => .error (.fault (unknownApplication o.obj.ident line))
  | .error e => .error (.fault (.other e))

section
variable [PyUnicode]

/-- the rest of `read` does what the model says -/
def Ends (E : Env) (s : Stmt) (st : St) (self : Val) (rest : List (Str × Val)) (line : Str) (o : ReadOut) : Prop :=
  ∃ texts rest', o.out.mapM (Event.text E.sc) = some texts ∧
    exec E s (inMethod st self rest) =
      (readEnd line o, inMethod { st with out := st.out ++ texts } (Spec.recordVal o.obj) rest')

variable {sc : Screen} {n : Nat} {st : St} {key : Str} {d : Definition}

theorem out_same (st : St) : ({ st with out := st.out ++ [] } : St) = st := by simp

theorem print_in {E : Env} {e : Expr} {self : Val} {rest : List (Str × Val)} {s : Str}
    (h : eval E e (inMethod st self rest) = (.ok (.str s), inMethod st self rest)) :
    exec E (.expr (.prim .print (.cons e .nil))) (inMethod st self rest) =
      (.ok .next, inMethod { st with out := st.out ++ [s] } self rest) := print_text h

omit [PyUnicode] in
theorem find_put (l : List (Str × Val)) (k : Str) (v : Val) : find (put l k v) k = some v := by
  induction l with
  | nil => simp [put, find]
  | cons p l ih =>
    obtain ⟨k', v'⟩ := p
    by_cases h : k' = k
    · simp [put, find, h]
    · simp [put, find, h, ih]

omit [PyUnicode] in
theorem find_put_ne (l : List (Str × Val)) (k k' : Str) (v : Val) (h : k ≠ k') : find (put l k v) k' = find l k' := by
  induction l with
  | nil => simp [put, find, h]
  | cons p l ih =>
    obtain ⟨j, w⟩ := p
    by_cases hj : j = k
    · subst hj; simp [put, find, h]
    · by_cases hj' : j = k'
      · subst hj'; simp [put, find, hj]
      · simp [put, find, hj, hj', ih]

/-- `x.m()` on a variable -/
theorem invoke0 {E : Env} {x m : Str} {st : St} {cls : Str} {attrs : List (Str × Val)} {res : Except Err Val}
    (hx : st.get x = some (.obj cls attrs)) (ha : find attrs m = none)
    (h : E.callMethod cls m (.obj cls attrs) [] st = (res, st, .obj cls attrs)) :
    eval E (.invoke (.name x) m .nil) st = (res, st) := by
  simp only [eval, evals, hx, bindR_ok, ha, isName, Bool.not_true, Bool.or_false]
  rw [h]
  simp only [applyMethod, mutate_same _ _ hx]

theorem eval_primary {i r c : Str} {f dv : Val} {rest : List (Str × Val)} (hd : dv = .int (-1) ∨ ∃ cls attrs, dv = .obj cls attrs) :
    eval (Src.library.env sc (n + 1)) (.invoke (.name (py!"self")) (py!"primary") .nil) (inMethod st (rec5 i r c f dv) rest) =
      (.ok (.bool (isPrimary c dv)), inMethod st (rec5 i r c f dv) rest) :=
  invoke0 rfl rfl (call_primary sc n _ hd)

/-- the method of a definition, with its arguments, when the object stays as it is -/
theorem invoke_def {E : Env} {m : Str} {cls : Str} {attrs : List (Str × Val)} {res : Except Err Val} {args : Exprs} {vs : List Val}
    {st : St} {i r c : Str} {f : Val} {rest : List (Str × Val)} (ha : find attrs m = none)
    (hv : evals E args (inMethod st (rec5 i r c f (.obj cls attrs)) rest) = (.ok vs, inMethod st (rec5 i r c f (.obj cls attrs)) rest))
    (h : ∀ st, E.callMethod cls m (.obj cls attrs) vs st = (res, st, .obj cls attrs)) :
    eval E (.invoke (.attr (.name (py!"self")) (py!"definition")) m args) (inMethod st (rec5 i r c f (.obj cls attrs)) rest) =
      (res, inMethod st (rec5 i r c f (.obj cls attrs)) rest) := by
  rw [eval, eval_definition, bindR_ok]
  simp only [hv, bindR_ok, ha, h, applyMethod]

omit [PyUnicode] in
theorem own : find (Spec.defAttrs key) (py!"read") = none := by
  unfold Spec.defAttrs
  repeat' split
  all_goals rfl

theorem end_fields (hk : registry.lookup key = some d) (hf : st.frozen = false) {line : Str} {rest : List (Str × Val)}
    (hl : find rest (py!"line") = some (.str line)) (self : Record) (hi : self.ident = key) (hd : self.definition = some d) :
    Ends (Src.library.env sc (n + 4)) (dropS 7 Src.Record_read.body) st (Spec.recordVal self) rest line (self.readFields d line) := by
  obtain ⟨i, r, c, f, dd⟩ := self
  simp only at hi hd
  subst hi hd
  have hv : Spec.recordVal ⟨i, r, c, f, some d⟩ = rec5 i r c (.list (f.map Spec.fieldVal)) (Spec.defVal i d) := rfl
  have hp : Record.primary ⟨i, r, c, f, some d⟩ = isPrimary c (Spec.defVal i d) := rfl
  have hcall : eval (Src.library.env sc (n + 4)) (.invoke (.attr (.name (py!"self")) (py!"definition")) (py!"read")
      (.cons (.name (py!"line")) (.cons (.invoke (.name (py!"self")) (py!"primary") .nil) .nil)))
      (inMethod st (rec5 i r c (.list (f.map Spec.fieldVal)) (Spec.defVal i d)) rest) =
      (Spec.fieldsOf i line (d.read line (isPrimary c (Spec.defVal i d))),
        inMethod st (rec5 i r c (.list (f.map Spec.fieldVal)) (Spec.defVal i d)) rest) := by
    refine invoke_def own (vs := [.str line, .bool (isPrimary c (Spec.defVal i d))]) ?_ fun st => read_definition sc (n + 1) hk line _ st
    rw [evals, eval]
    have : (inMethod st (rec5 i r c (.list (f.map Spec.fieldVal)) (Spec.defVal i d)) rest).get (py!"line") = some (.str line) := by
      simp [inMethod, St.get, find, hl]
    rw [Spec.defVal] at this
    rw [this]
    simp only [bindR_ok]
    have hp' := eval_primary (sc := sc) (n := n + 3) (st := st) (i := i) (r := r) (c := c) (f := .list (f.map Spec.fieldVal))
      (rest := rest) (dv := Spec.defVal i d) (.inr ⟨_, _, rfl⟩)
    rw [evals, show (Val.obj d.cls (Spec.defAttrs i)) = Spec.defVal i d from rfl, hp']
    simp only [bindR_ok, evals]
  unfold Record.readFields
  rw [hp, hv]
  cases hr : d.read line (isPrimary c (Spec.defVal i d)) with
  | error e =>
    refine ⟨[], rest, rfl, ?_⟩
    rw [hr] at hcall
    rw [out_same]
    cases e
    all_goals exact seq_error (set_bad hcall)
  | ok fs =>
    rw [hr] at hcall
    have hset := set_fields hf hcall
    cases fs with
    | nil =>
      refine ⟨[], rest, rfl, ?_⟩
      rw [out_same]
      exact seq_next hset (seq_ret (ite_yes (v := .bool true) rfl rfl rfl))
    | cons x fs =>
      refine ⟨[], rest, rfl, ?_⟩
      rw [out_same]
      exact seq_next hset (seq_next (ite_no (v := .bool false) rfl rfl rfl) rfl)

/-! ## The attributes of a definition -/

omit [PyUnicode] in
theorem intAttr {C : Class} {a : Str} {o : Option Nat} (h : intAttrIs C a o = true) : find C.attrs a = o.map fun k => .int (.ofNat k) := by
  unfold intAttrIs at h
  cases o with
  | none => simpa using h
  | some k =>
    simp only at h
    split at h
    · next j hj => simp only [beq_iff_eq] at h; subst h; exact hj
    · simp at h

omit [PyUnicode] in
theorem strAttr {C : Class} {a : Str} {o : Option Str} (h : strAttrIs C a o = true) : find C.attrs a = o.map .str := by
  unfold strAttrIs at h
  cases o with
  | none => simpa using h
  | some k =>
    simp only at h
    split at h
    · next j hj => simp only [beq_iff_eq] at h; subst h; exact hj
    · simp at h

omit [PyUnicode] in
theorem listAttr {C : Class} {a : Str} {ss : List Str} (h : listAttrIs C a (some ss) = true) :
    ∃ l, find C.attrs a = some (.list l) ∧ texts l = some ss := by
  unfold listAttrIs at h
  simp only at h
  split at h
  · next l hl => exact ⟨l, hl, by simpa using h⟩
  · simp at h

/-- what the class of a definition holds -/
structure Holds (sc : Screen) (key : Str) (d : Definition) : Prop where
  cont : ∀ n, (Src.library.env sc n).classAttr d.cls (py!"cont_idx") = d.contIdx.map fun k => .int (.ofNat k)
  app : ∀ n, (Src.library.env sc n).classAttr d.cls (py!"app_idx") = d.appIdx.map fun k => .int (.ofNat k)
  name : ∀ n, (Src.library.env sc n).classAttr d.cls (py!"name") = d.name.map .str
  conts : ∀ cs, d.continuations = some cs → ∀ n, ∃ l,
    (Src.library.env sc n).classAttr d.cls (py!"continuations") = some (.list l) ∧ texts l = some cs
  appType : ∀ sl, d.appType = some sl → ∀ n raw st,
    (Src.library.env sc (n + 1)).callMethod d.cls (py!"application_type") (Spec.defVal key d) [.str raw] st =
      (plainRes (sl.eval raw) .str, st, Spec.defVal key d)
  own : ∀ a, a = py!"cont_idx" ∨ a = py!"app_idx" ∨ a = py!"name" ∨ a = py!"continuations" ∨ a = py!"application_type" →
    find (Spec.defAttrs key) a = none

theorem holds (sc : Screen) (hk : registry.lookup key = some d) : Holds sc key d := by
  obtain ⟨C, hC, hc⟩ := class_of hk
  simp only [classIs, Bool.and_eq_true] at hc
  obtain ⟨⟨⟨⟨⟨⟨-, h1⟩, h2⟩, h3⟩, h4⟩, h5⟩, h6⟩ := hc
  refine ⟨fun n => ?_, fun n => ?_, fun n => ?_, fun cs hcs n => ?_, fun sl hsl n raw st => ?_, fun a ha => ?_⟩
  · rw [classAttr_env sc n hC]; exact intAttr h1
  · rw [classAttr_env sc n hC]; exact intAttr h2
  · rw [classAttr_env sc n hC]; exact strAttr h3
  · rw [classAttr_env sc n hC]; rw [hcs] at h4; exact listAttr h4
  · rw [hsl] at h5
    unfold appTypeIs at h5
    simp only at h5
    split at h5
    · next p r ds e hm =>
      simp only [Bool.and_eq_true, beq_iff_eq] at h5
      obtain ⟨⟨rfl, rfl⟩, h5⟩ := h5
      rw [env_callMethod]
      exact callMethod_ret hC hm (eval_slice1 rfl rfl (classAttr_env sc n hC) h5)
    · simp at h5
  · simp only [notOwn, Bool.and_eq_true, Option.isNone_iff_eq_none] at h6
    obtain ⟨⟨⟨⟨g1, g2⟩, g3⟩, g4⟩, g5⟩ := h6
    rcases ha with rfl | rfl | rfl | rfl | rfl <;> assumption

theorem eval_defAttr {E : Env} {cls a : Str} {attrs : List (Str × Val)} {v : Val} {i r c : Str} {f : Val} {rest : List (Str × Val)}
    (ha : find attrs a = none) (hv : E.classAttr cls a = some v) :
    eval E (.attr (.attr (.name (py!"self")) (py!"definition")) a) (inMethod st (rec5 i r c f (.obj cls attrs)) rest) =
      (.ok v, inMethod st (rec5 i r c f (.obj cls attrs)) rest) := by
  rw [eval, eval_definition, bindR_ok]
  simp only [getAttr, ha, hv]

theorem eval_hasattr {E : Env} {cls a : Str} {attrs : List (Str × Val)} {i r c : Str} {f : Val} {rest : List (Str × Val)}
    (ha : find attrs a = none) :
    eval E (.prim .hasattr (.cons (.attr (.name (py!"self")) (py!"definition")) (.cons (.const (.str a)) .nil)))
      (inMethod st (rec5 i r c f (.obj cls attrs)) rest) =
      (.ok (.bool (E.classAttr cls a).isSome), inMethod st (rec5 i r c f (.obj cls attrs)) rest) := by
  rw [eval, evals, eval_definition, bindR_ok, evals, eval, bindR_ok, evals, bindR_ok, bindR_ok, bindR_ok]
  simp only [callPrim, ha, Option.isSome_none, Bool.false_or]

/-- record.py:147-157 -/
theorem end_application (hk : registry.lookup key = some d) (hf : st.frozen = false) {line : Str} {rest : List (Str × Val)}
    (hl : find rest (py!"line") = some (.str line)) (self : Record) (hi : self.ident = key) (hd : self.definition = some d)
    {k : Nat} (hc : d.contIdx = some k) (b : Stmt)
    (hb : b = dropS 2 (match dropS 6 Src.Record_read.body with | .seq (.ite _ x _) _ => x | s => s)) :
    (∃ e, exec (Src.library.env sc (n + 4)) b (inMethod st (Spec.recordVal self) rest) =
      (.error (.fault e), inMethod st (Spec.recordVal self) rest) ∧ self.checkApplication d line = ⟨.error e.exc, self, []⟩ ∧
        e = .other e.exc ∧ e.exc ≠ .valueError) ∨
    ∃ rest', find rest' (py!"line") = some (.str line) ∧
      exec (Src.library.env sc (n + 4)) b (inMethod st (Spec.recordVal self) rest) =
        (.ok .next, inMethod st (Spec.recordVal self) rest') ∧ self.checkApplication d line = self.readFields d line := by
  have H := holds sc hk
  have hall := List.all_eq_true.mp attrs_checked _ (lookup_mem hk)
  simp only [hc, Option.isNone_some, Bool.false_or, Bool.and_eq_true, Option.isSome_iff_exists] at hall
  obtain ⟨⟨⟨⟨ai, hai⟩, sl, hsl⟩, cs, hcs⟩, nm, hnm⟩ := hall
  obtain ⟨i, r, c, f, dd⟩ := self
  simp only at hi hd
  subst hi hd
  have hv : Spec.recordVal ⟨i, r, c, f, some d⟩ = rec5 i r c (.list (f.map Spec.fieldVal)) (Spec.defVal i d) := rfl
  have hp : Record.primary ⟨i, r, c, f, some d⟩ = isPrimary c (Spec.defVal i d) := rfl
  unfold Record.checkApplication
  rw [hp, hv, hai, hsl, hcs, hnm]
  have hprim := eval_primary (sc := sc) (n := n + 3) (st := st) (i := i) (r := r) (c := c) (f := .list (f.map Spec.fieldVal))
      (rest := rest) (dv := Spec.defVal i d) (.inr ⟨_, _, rfl⟩)
  subst hb
  cases hpr : isPrimary c (Spec.defVal i d)
  · rw [hpr] at hprim
    have happ := eval_hasattr (E := Src.library.env sc (n + 4)) (cls := d.cls) (st := st) (i := i) (r := r) (c := c)
      (f := .list (f.map Spec.fieldVal)) (rest := rest) (H.own _ (.inr (.inl rfl)))
    rw [H.app, hai] at happ
    have hty := invoke_def (E := Src.library.env sc (n + 4)) (cls := d.cls) (m := py!"application_type") (st := st) (i := i) (r := r) (c := c)
      (f := .list (f.map Spec.fieldVal)) (rest := rest) (attrs := Spec.defAttrs i) (args := .cons (.attr (.name (py!"self")) (py!"raw")) .nil)
      (vs := [.str r]) (H.own _ (.inr (.inr (.inr (.inr rfl))))) (by rw [evals, eval_raw, bindR_ok, evals, bindR_ok])
      (fun st => H.appType sl hsl (n + 3) r st)
    simp only
    cases hs : sl.eval r with
    | error e =>
      left
      rw [hs] at hty
      have he := slice_error hs
      subst he
      refine ⟨.other .indexError, ?_, rfl, rfl, by simp [Fault.exc]⟩
      exact ite_yes (is_bool hprim) rfl (ite_yes happ rfl (seq_error (assign_bad hty)))
    | ok t =>
      right
      rw [hs] at hty
      have htr : truthy (py!"J") = true := rfl
      simp only [if_true, htr, Bool.not_true, Bool.and_false, Bool.false_eq_true, if_false]
      refine ⟨put rest (py!"application_type") (.str t), ?_, ?_, trivial⟩
      · rw [← hl]
        exact find_put_ne _ _ _ _ (by decide)
      · refine ite_yes (is_bool hprim) rfl (ite_yes happ rfl (seq_next (assign_ok hty) ?_))
        obtain ⟨l, h1, h2⟩ := H.conts cs hcs (n + 4)
        have hst : (inMethod st (rec5 i r c (.list (f.map Spec.fieldVal)) (.obj d.cls (Spec.defAttrs i))) rest).assign (py!"application_type") (.str t) =
          inMethod st (rec5 i r c (.list (f.map Spec.fieldVal)) (.obj d.cls (Spec.defAttrs i))) (put rest (py!"application_type") (.str t)) := rfl
        rw [hst]
        refine ite_no (v := .bool false) (st' := inMethod st (rec5 i r c (.list (f.map Spec.fieldVal)) (.obj d.cls (Spec.defAttrs i)))
          (put rest (py!"application_type") (.str t))) ?_ rfl rfl
        have hcont := eval_defAttr (st := st) (i := i) (r := r) (c := c) (f := .list (f.map Spec.fieldVal))
          (rest := put rest (py!"application_type") (.str t)) (H.own _ (.inr (.inr (.inr (.inl rfl))))) h1
        have hname : eval (Src.library.env sc (n + 4)) (.name (py!"application_type")) (inMethod st (rec5 i r c (.list (f.map Spec.fieldVal)) (.obj d.cls (Spec.defAttrs i)))
          (put rest (py!"application_type") (.str t))) = (.ok (.str t), inMethod st (rec5 i r c (.list (f.map Spec.fieldVal)) (.obj d.cls (Spec.defAttrs i)))
          (put rest (py!"application_type") (.str t))) := by
          rw [eval]
          simp [St.get, inMethod, find, find_put]
        rw [eval, cmp_of hname hcont]
        simp only [compare, isIn, h2, Option.map, answer, bindR_ok, truth]
        cases cs.contains t <;> simp [eval, bindR_ok, answer, truth]
  · right
    rw [hpr] at hprim
    refine ⟨rest, hl, ite_no (is_bool hprim) rfl rfl, ?_⟩
    simp

/-- record.py:138-145, and the rest -/
theorem end_with (hk : registry.lookup key = some d) (hf : st.frozen = false) {line : Str} {rest : List (Str × Val)}
    (hl : find rest (py!"line") = some (.str line)) (self : Record) (hi : self.ident = key) :
    Ends (Src.library.env sc (n + 4)) (dropS 6 Src.Record_read.body) st (Spec.recordVal { self with definition := some d }) rest line
      (self.readWith d line) := by
  have H := holds sc hk
  obtain ⟨i, r, c, f, dd⟩ := self
  simp only at hi
  subst hi
  have hv : Spec.recordVal ⟨i, r, c, f, some d⟩ = rec5 i r c (.list (f.map Spec.fieldVal)) (Spec.defVal i d) := rfl
  have hcont := eval_hasattr (E := Src.library.env sc (n + 4)) (cls := d.cls) (st := st) (i := i) (r := r) (c := c)
      (f := .list (f.map Spec.fieldVal)) (rest := rest) (H.own _ (.inl rfl))
  rw [H.cont] at hcont
  unfold Record.readWith
  cases hc : d.contIdx with
  | none =>
    rw [hc] at hcont
    obtain ⟨ts, rest', h1, h2⟩ := end_fields (sc := sc) (n := n) hk hf hl ⟨i, r, c, f, some d⟩ rfl rfl
    exact ⟨ts, rest', h1, seq_next (ite_no hcont rfl rfl) h2⟩
  | some k =>
    rw [hc] at hcont
    have hidx : eval (Src.library.env sc (n + 4)) (.attr (.attr (.name (py!"self")) (py!"definition")) (py!"cont_idx"))
        (inMethod st (rec5 i r c (.list (f.map Spec.fieldVal)) (Spec.defVal i d)) rest) =
        (.ok (.int (.ofNat k)), inMethod st (rec5 i r c (.list (f.map Spec.fieldVal)) (Spec.defVal i d)) rest) :=
      eval_defAttr (H.own _ (.inl rfl)) (by rw [H.cont, hc]; rfl)
    have hsub : eval (Src.library.env sc (n + 4)) (.sub (.attr (.name (py!"self")) (py!"raw")) (.attr (.attr (.name (py!"self")) (py!"definition")) (py!"cont_idx")))
        (inMethod st (rec5 i r c (.list (f.map Spec.fieldVal)) (Spec.defVal i d)) rest) =
        (plainRes (index r k) .str, inMethod st (rec5 i r c (.list (f.map Spec.fieldVal)) (Spec.defVal i d)) rest) := by
      rw [eval, eval_raw, bindR_ok, hidx, bindR_ok, subscript, if_neg (by simp), lift_index]
      rfl
    simp only
    cases hx : index r k with
    | error e =>
      rw [hx] at hsub
      have he := index_error hx
      subst he
      refine ⟨[], rest, rfl, ?_⟩
      rw [out_same]
      exact seq_error (ite_yes hcont rfl (seq_error (set_bad hsub)))
    | ok x =>
      rw [hx] at hsub
      have hset := set_continuation hf hsub
      have hall := List.all_eq_true.mp attrs_checked _ (lookup_mem hk)
      simp only [hc, Option.isNone_some, Bool.false_or, Bool.and_eq_true, Option.isSome_iff_exists] at hall
      obtain ⟨-, nm, hnm⟩ := hall
      have haln : eval (Src.library.env sc (n + 4)) (.cmp .eq (.method (.attr (.name (py!"self")) (py!"continuation")) .isalnum .nil) (.const (.bool false)))
          (inMethod st (rec5 i r x (.list (f.map Spec.fieldVal)) (Spec.defVal i d)) rest) =
          (.ok (.bool (isAlnum x == false)), inMethod st (rec5 i r x (.list (f.map Spec.fieldVal)) (Spec.defVal i d)) rest) := by
        rfl
      simp only
      cases hal : isAlnum x
      · rw [hal] at haln
        have hname : ∀ st, eval (Src.library.env sc (n + 4)) (.attr (.attr (.name (py!"self")) (py!"definition")) (py!"name"))
            (inMethod st (rec5 i r x (.list (f.map Spec.fieldVal)) (Spec.defVal i d)) rest) =
            (.ok (.str nm), inMethod st (rec5 i r x (.list (f.map Spec.fieldVal)) (Spec.defVal i d)) rest) := fun st =>
          eval_defAttr (H.own _ (.inr (.inr (.inl rfl)))) (by rw [H.name, hnm]; rfl)
        simp only [hnm, if_true]
        refine ⟨_, rest, rfl, ?_⟩
        have hm1 : eval (Src.library.env sc (n + 4)) (.join (.cons (.const (.str (py!"Unsupported "))) (.cons (.fmt .plain
            (.attr (.attr (.name (py!"self")) (py!"definition")) (py!"name"))) (.cons (.const (.str (py!" Continuation Record Number: \"")))
            (.cons (.fmt .plain (.attr (.name (py!"self")) (py!"continuation"))) (.cons (.const (.str (py!"\""))) .nil))))))
            (inMethod st (rec5 i r x (.list (f.map Spec.fieldVal)) (Spec.defVal i d)) rest) =
            (.ok (.str (py!"Unsupported " ++ nm ++ py!" Continuation Record Number: \"" ++ x ++ py!"\"")),
              inMethod st (rec5 i r x (.list (f.map Spec.fieldVal)) (Spec.defVal i d)) rest) := by
          rw [eval, evals, eval, bindR_ok, evals, eval, hname, bindR_ok]
          simp only [format, plainText, asText, bindR_ok]
          rw [evals, eval, bindR_ok, evals, eval, eval_continuation, bindR_ok]
          simp [format, plainText, asText, bindR_ok, evals, eval, texts]
        have hm2 : ∀ st, eval (Src.library.env sc (n + 4)) (.join (.cons (.const (.str (py!"Record: "))) (.cons (.fmt .plain (.attr (.name (py!"self")) (py!"raw"))) .nil)))
            (inMethod st (rec5 i r x (.list (f.map Spec.fieldVal)) (Spec.defVal i d)) rest) =
            (.ok (.str (py!"Record: " ++ r)), inMethod st (rec5 i r x (.list (f.map Spec.fieldVal)) (Spec.defVal i d)) rest) := by
          intro st
          rw [eval, evals, eval, bindR_ok, evals, eval, eval_raw, bindR_ok]
          simp [format, plainText, asText, bindR_ok, evals, texts]
        have hp1 := print_in hm1
        have hp3 := print_in (hm2 { st with out := st.out ++ [py!"Unsupported " ++ nm ++ py!" Continuation Record Number: \"" ++ x ++ py!"\""] ++
            [py!"Valid Continuation Record Numbers are 0, 1, 2 (through 9) A, B, C (through Z)"] })
        have := seq_ret (b := dropS 7 Src.Record_read.body) (ite_yes hcont rfl (b := .pass) (seq_next hset (seq_ret
          (b := dropS 2 (match dropS 6 Src.Record_read.body with | .seq (.ite _ x _) _ => x | s => s)) (ite_yes haln rfl (b := .pass)
          (seq_next hp1 (seq_next (print_in (st := { st with out := st.out ++ [py!"Unsupported " ++ nm ++ py!" Continuation Record Number: \"" ++ x ++ py!"\""] })
            (e := .const (.str (py!"Valid Continuation Record Numbers are 0, 1, 2 (through 9) A, B, C (through Z)"))) rfl)
            (seq_next hp3 (ret_ok (v := .bool false) (e := .const (.bool false)) rfl))))))))
        refine this.trans ?_
        simp [readEnd, Spec.recordVal, rec5, List.append_assoc]
      · rw [hal] at haln
        simp only [Bool.true_eq_false, if_false]
        rcases end_application (sc := sc) (n := n) hk hf hl ⟨i, r, x, f, some d⟩ rfl rfl hc _ rfl with ⟨e, h1, h2, h3, h4⟩ | ⟨rest', h1, h2, h3⟩
        · rw [h2]
          refine ⟨[], rest, rfl, ?_⟩
          rw [out_same]
          refine Eq.trans (seq_error (ite_yes hcont rfl (seq_next hset (seq_next (ite_no haln rfl rfl) h1)))) ?_
          obtain ⟨y, hy⟩ : ∃ y, e = .other y := ⟨_, h3⟩
          subst hy
          cases y
          all_goals first
            | rfl
            | exact absurd rfl h4
        · rw [h3]
          obtain ⟨ts, rest'', g1, g2⟩ := end_fields (sc := sc) (n := n) hk hf h1 ⟨i, r, x, f, some d⟩ rfl rfl
          exact ⟨ts, rest'', g1, seq_next (ite_yes hcont rfl (seq_next hset (seq_next (ite_no haln rfl rfl) h2))) g2⟩

/-! ## `read` -/

omit [PyUnicode] in
theorem lookup_map {α β : Type} (g : Str → α → β) (l : List (Str × α)) (k : Str) :
    (l.map fun p => (p.1, g p.1 p.2)).lookup k = (l.lookup k).map (g k) := by
  induction l with
  | nil => rfl
  | cons p l ih =>
    obtain ⟨k', v⟩ := p
    simp only [List.map_cons, List.lookup_cons]
    by_cases h : k = k'
    · subst h; simp
    · rw [show (k == k') = false from by simpa using h]; exact ih

theorem get_in {self : Val} {rest : List (Str × Val)} {x : Str} (h : x ≠ py!"self") : (inMethod st self rest).get x =
    match find rest x with | some v => some v | none => find st.globals x := by
  simp only [St.get, inMethod, find, Ne.symm h, if_false]
  cases find rest x <;> rfl

/-- the part of `read` from record.py:136 on -/
theorem end_definition (hk : registry.lookup key = some d) (hf : st.frozen = false) {line : Str} {rest : List (Str × Val)}
    (hl : find rest (py!"line") = some (.str line)) (hr : find rest (py!"records") = none)
    (hg : find st.globals (py!"records") = some Spec.recordsVal) (self : Record) (hi : self.ident = key) (dv : Val) :
    Ends (Src.library.env sc (n + 4)) (dropS 5 Src.Record_read.body) st
      (rec5 self.ident self.raw self.continuation (.list (self.fields.map Spec.fieldVal)) dv) rest line
      (self.readDefinition line) := by
  obtain ⟨ts, rest', h1, h2⟩ := end_with (sc := sc) (n := n) hk hf hl self hi
  unfold Record.readDefinition
  rw [hi, hk]
  refine ⟨ts, rest', h1, ?_⟩
  refine seq_next (set_definition hf (v := Spec.defVal key d) ?_) (hi ▸ h2)
  have hget : (inMethod st (rec5 key self.raw self.continuation (.list (self.fields.map Spec.fieldVal)) dv) rest).get (py!"records") =
      some Spec.recordsVal := by
    rw [get_in (by decide), hr]; exact hg
  rw [eval, eval, hget, bindR_ok, eval_ident, bindR_ok]
  unfold Spec.recordsVal subscript
  simp only [lookup_map, hk, Option.map]

/-- `key in records` -/
theorem eval_in {E : Env} {self : Val} {rest : List (Str × Val)} {x k : Str} (hx : find rest x = some (.str k)) (hs : x ≠ py!"self")
    (hr : find rest (py!"records") = none) (hg : find st.globals (py!"records") = some Spec.recordsVal) :
    eval E (.cmp .in (.name x) (.name (py!"records"))) (inMethod st self rest) =
      (.ok (.bool (inRegistry k)), inMethod st self rest) := by
  rw [eval, eval, get_in hs, hx]
  simp only [bindR_ok]
  rw [eval, get_in (by decide), hr, hg]
  simp only [bindR_ok, compare, Spec.recordsVal, isIn, lookup_map, answer, inRegistry, Option.isSome_map]

theorem eval_local {E : Env} {self v : Val} {rest : List (Str × Val)} {x : Str} (hx : find rest x = some v) (hs : x ≠ py!"self") :
    eval E (.name x) (inMethod st self rest) = (.ok v, inMethod st self rest) := by
  rw [eval, get_in hs, hx]

/-- the body of `read` -/
theorem end_read (hf : st.frozen = false) (hg : find st.globals (py!"records") = some Spec.recordsVal) (self : Record) (line : Str) :
    Ends (Src.library.env sc (n + 4)) Src.Record_read.body st (Spec.recordVal self) [(py!"line", .str line)] line (self.read line) := by
  obtain ⟨i, r, c, f, dd⟩ := self
  generalize hdv : (match dd with
      | none => .int (-1)
      | some d => Spec.defVal i d : Val) = dv
  have hv : Spec.recordVal ⟨i, r, c, f, dd⟩ = rec5 i r c (.list (f.map Spec.fieldVal)) dv := by subst hdv; rfl
  have hv' : ∀ r', Spec.recordVal ⟨i, r', c, f, dd⟩ = rec5 i r' c (.list (f.map Spec.fieldVal)) dv := by subst hdv; intro; rfl
  have hval : eval (Src.library.env sc (n + 4)) (.invoke (.name (py!"self")) (py!"validate") (.cons (.name (py!"line")) .nil))
      (inMethod st (Spec.recordVal ⟨i, r, c, f, dd⟩) [(py!"line", .str line)]) =
      (.ok (.bool (validate line)), inMethod st (Spec.recordVal ⟨i, r, c, f, dd⟩) [(py!"line", .str line)]) :=
    eval_invoke rfl rfl rfl (call_validate sc (n + 3) _ _ line)
  unfold Record.read
  cases hvl : validate line
  · rw [hvl] at hval
    refine ⟨[], [(py!"line", .str line)], rfl, ?_⟩
    rw [out_same]
    exact seq_ret (ite_yes (is_bool hval) rfl rfl)
  rw [hvl] at hval
  simp only [Bool.true_eq_false, if_false]
  rw [hv] at hval ⊢
  have hraw := set_raw (E := Src.library.env sc (n + 4)) (e := .method (.name (py!"line")) .strip .nil) (v := strip line) (i := i) (r := r)
    (c := c) (f := .list (f.map Spec.fieldVal)) (d := dv) (rest := [(py!"line", .str line)]) hf rfl
  have hid1 : exec (Src.library.env sc (n + 4)) (.assign (py!"identifier_1") (.slice (.name (py!"line")) (some 4) (some 6)))
      (inMethod st (rec5 i (strip line) c (.list (f.map Spec.fieldVal)) dv) [(py!"line", .str line)]) =
      (.ok .next, inMethod st (rec5 i (strip line) c (.list (f.map Spec.fieldVal)) dv)
        [(py!"line", .str line), (py!"identifier_1", .str (slice line 4 6))]) := rfl
  have hid2 : eval (Src.library.env sc (n + 4)) (.bin .add (.sub (.name (py!"line")) (.const (.int 4))) (.sub (.name (py!"line")) (.const (.int 12))))
      (inMethod st (rec5 i (strip line) c (.list (f.map Spec.fieldVal)) dv)
        [(py!"line", .str line), (py!"identifier_1", .str (slice line 4 6))]) =
      (plainRes ((Slice.pair 4 12).eval line) .str, inMethod st (rec5 i (strip line) c (.list (f.map Spec.fieldVal)) dv)
        [(py!"line", .str line), (py!"identifier_1", .str (slice line 4 6))]) :=
    eval_slice1 (C := Src.Record) (r := py!"line") (cls := py!"Record") rfl rfl (classAttr_env sc (n + 4) lookup_Record) rfl
  cases hp : (Slice.pair 4 12).eval line with
  | error e =>
    rw [hp] at hid2
    have he := slice_error hp
    subst he
    refine ⟨[], [(py!"line", .str line), (py!"identifier_1", .str (slice line 4 6))], rfl, ?_⟩
    rw [out_same]
    refine Eq.trans (seq_next (ite_no (is_bool hval) rfl rfl) (seq_next hraw (seq_next hid1 (seq_error (assign_bad hid2))))) ?_
    simp only [hv']
    rfl
  | ok id2 =>
    rw [hp] at hid2
    simp only
    have hid2' : exec (Src.library.env sc (n + 4)) (.assign (py!"identifier_2") (.bin .add (.sub (.name (py!"line")) (.const (.int 4)))
        (.sub (.name (py!"line")) (.const (.int 12)))))
      (inMethod st (rec5 i (strip line) c (.list (f.map Spec.fieldVal)) dv)
        [(py!"line", .str line), (py!"identifier_1", .str (slice line 4 6))]) =
      (.ok .next, inMethod st (rec5 i (strip line) c (.list (f.map Spec.fieldVal)) dv)
        [(py!"line", .str line), (py!"identifier_1", .str (slice line 4 6)), (py!"identifier_2", .str id2)]) := assign_ok hid2
    generalize hrest : [(py!"line", Val.str line), (py!"identifier_1", .str (slice line 4 6)), (py!"identifier_2", .str id2)] = rest at hid2'
    have hline : find rest (py!"line") = some (.str line) := by subst hrest; rfl
    have hf1 : find rest (py!"identifier_1") = some (.str (slice line 4 6)) := by subst hrest; rfl
    have hf2 : find rest (py!"identifier_2") = some (.str id2) := by subst hrest; rfl
    have hrec : find rest (py!"records") = none := by subst hrest; rfl
    have hin1 := eval_in (E := Src.library.env sc (n + 4)) (self := rec5 i (strip line) c (.list (f.map Spec.fieldVal)) dv) hf1 (by decide) hrec hg
    have hin2 := eval_in (E := Src.library.env sc (n + 4)) (self := rec5 i (strip line) c (.list (f.map Spec.fieldVal)) dv) hf2 (by decide) hrec hg
    have start : ∀ {x : Res Flow}, exec (Src.library.env sc (n + 4)) (dropS 4 Src.Record_read.body)
        (inMethod st (rec5 i (strip line) c (.list (f.map Spec.fieldVal)) dv) rest) = x →
        exec (Src.library.env sc (n + 4)) Src.Record_read.body
          (inMethod st (rec5 i r c (.list (f.map Spec.fieldVal)) dv) [(py!"line", .str line)]) = x := fun h =>
      seq_next (ite_no (is_bool hval) rfl rfl) (seq_next hraw (seq_next hid1 (seq_next hid2' h)))
    cases h1 : inRegistry (slice line 4 6)
    · rw [h1] at hin1
      cases h2 : inRegistry id2
      · rw [h2] at hin2
        refine ⟨[], rest, rfl, ?_⟩
        rw [out_same]
        refine Eq.trans (start (seq_ret (ite_no hin1 rfl (ite_no hin2 rfl rfl)))) ?_
        rw [← hv']
        rfl
      · rw [h2] at hin2
        obtain ⟨d, hd⟩ := Option.isSome_iff_exists.mp h2
        obtain ⟨ts, rest', g1, g2⟩ := end_definition (sc := sc) (n := n) hd hf hline hrec hg ⟨id2, strip line, c, f, dd⟩ rfl dv
        exact ⟨ts, rest', g1, start (seq_next (ite_no hin1 rfl (ite_yes hin2 rfl (set_ident hf (eval_local hf2 (by decide))))) g2)⟩
    · rw [h1] at hin1
      obtain ⟨d, hd⟩ := Option.isSome_iff_exists.mp h1
      obtain ⟨ts, rest', g1, g2⟩ := end_definition (sc := sc) (n := n) hd hf hline hrec hg ⟨slice line 4 6, strip line, c, f, dd⟩ rfl dv
      exact ⟨ts, rest', g1, start (seq_next (ite_yes hin1 rfl (set_ident hf (eval_local hf1 (by decide)))) g2)⟩

theorem call_read (sc : Screen) (n : Nat) (st : St) (hf : st.frozen = false)
    (hg : find st.globals (py!"records") = some Spec.recordsVal) (self : Record) (line : Str) :
    ∃ texts, (self.read line).out.mapM (Event.text sc) = some texts ∧
      (Src.library.env sc (n + 5)).callMethod (py!"Record") (py!"read") (Spec.recordVal self) [.str line] st =
        (Spec.boolRes (self.readF line), { st with out := st.out ++ texts }, Spec.recordVal (self.read line).obj) := by
  obtain ⟨ts, rest', h1, h2⟩ := end_read (sc := sc) (n := n) hf hg self line
  rw [env_sc] at h1
  refine ⟨ts, h1, ?_⟩
  rw [env_callMethod, Prog.callMethod]
  simp only [lookup_Record, method_read, Option.bind, runBody, bindParams, Option.map,
    show Src.Record_read.params = [py!"self", py!"line"] from rfl]
  unfold inMethod at h2
  rw [h2, Record.readF]
  unfold readEnd
  cases (self.read line).res with
  | ok b => rfl
  | error e => cases e <;> rfl

end
end Arinc.Lang
