import Verif.Lemmas.SourceState
import Verif.Spec.SourceLibrary
/-!
# Lemmas: running the source of definitions/*.py

A method of these classes is compared with the model by a function that looks at the syntax tree (`readIs`); the theorems
say that the source computes what the model says if this function answers `true`.
-/
namespace Arinc.Lang
open Py

/-- does the expression have this text as its value? -/
def nameIs (attrs : List (Str × Val)) : Expr → Str → Bool
  | .const (.str s), n => s == n
  | .attr (.name x) a, n => x == py!"self" && match find attrs a with | some (.str s) => s == n | _ => false
  | _, _ => false

/-- is it the slice of the variable `r`? -/
def sliceIs1 (C : Class) (attrs : List (Str × Val)) (r : Str) : Expr → Slice → Bool
  | .sub (.name x) (.const (.int (.ofNat i))), .at j => x == r && i == j
  | .sub (.name x) (.attr (.name y) a), .at j =>
    x == r && y == py!"self" && (find attrs a).isNone && match find C.attrs a with | some (.int (.ofNat i)) => i == j | _ => false
  | .slice (.name x) (some (.ofNat i)) (some (.ofNat j)), .range lo hi => x == r && i == lo && j == hi
  | .bin .add (.sub (.name x) (.const (.int (.ofNat i)))) (.sub (.name y) (.const (.int (.ofNat j)))), .pair lo hi =>
    x == r && y == r && i == lo && j == hi
  | _, _ => false

/-- the same, or one of two by an attribute -/
def sliceIs (C : Class) (attrs : List (Str × Val)) (r : Str) : Expr → Slice → Bool
  | .cond (.cmp .is (.attr (.name x) a) (.const (.bool b))) e f, s =>
    x == py!"self" && match find attrs a with
      | some (.bool c) => if c == b then sliceIs1 C attrs r e s else sliceIs1 C attrs r f s
      | _ => false
  | e, s => sliceIs1 C attrs r e s

/-- is it the list of fields? -/
def fieldsAre (C : Class) (attrs : List (Str × Val)) (r : Str) : Exprs → Layout → Bool
  | .nil, [] => true
  | .cons (.call f (.cons n (.cons v (.cons (.const (.fn g)) .nil)))) es, s :: l =>
    f == py!"Field" && nameIs attrs n s.name && sliceIs C attrs r v s.slice && g == Spec.nameOf s.dec && fieldsAre C attrs r es l
  | _, _ => false

/-- is it a call of a method that returns the list of fields, or the list? -/
def retIs (C : Class) (attrs : List (Str × Val)) (line : Str) : Expr → Layout → Bool
  | .list es, l => fieldsAre C attrs line es l
  | .invoke (.name x) m (.cons (.name y) .nil), l =>
    x == py!"self" && y == line && (find attrs m).isNone && match C.methods.lookup m with
      | some ⟨[p, r], _, .ret (.list es)⟩ => p == py!"self" && r == py!"r" && fieldsAre C attrs r es l
      | _ => false
  | _, _ => false

/-- is it the text that the `match` is about? -/
def selIs (C : Class) (attrs : List (Str × Val)) (line : Str) : Expr → Slice → Bool
  | .invoke (.name x) m (.cons (.name y) .nil), s =>
    x == py!"self" && y == line && (find attrs m).isNone && match C.methods.lookup m with
      | some ⟨[p, r], _, .ret e⟩ => p == py!"self" && r == py!"line" && sliceIs1 C attrs r e s
      | _ => false
  | e, s => sliceIs1 C attrs line e s

/-- the arguments of the exception in the last case -/
def raisedText (C : Class) (attrs : List (Str × Val)) (line : Str) (sel : Slice) (app text : Str) : Exprs → Option (List Str)
  | .cons (.const (.str s)) .nil => some [s]
  | .cons (.const (.str s)) (.cons e .nil) => if sliceIs1 C attrs line e sel then some [s, app] else none
  | .cons (.join (.cons (.fmt .plain (.const (.str a))) (.cons (.const (.str b)) (.cons (.fmt .plain (.name x))
      (.cons (.const (.str c)) (.cons (.fmt .plain (.name y)) .nil)))))) .nil =>
    if x = py!"application" ∧ y = line then some [a ++ (b ++ (app ++ (c ++ text)))] else none
  | _ => none

/-- the exception in the last case -/
def raiseArgs : Stmt → Option Exprs
  | .case _ _ rest => raiseArgs rest
  | .raise args => some args
  | _ => none

/-- are these the cases? -/
def casesAre (C : Class) (attrs : List (Str × Val)) (line : Str) : Stmt → List (Str × Layout) → Other → Bool
  | .case (.str s) (.ret e) rest, (k, l) :: cs, o => s == k && retIs C attrs line e l && casesAre C attrs line rest cs o
  | .ret (.list .nil), [], .empty => true
  | .raise _, [], .raise => true
  | .ret e, [], .layout l => retIs C attrs line e l
  | _, _, _ => false

/-- the `match` of a `read` method, for primary records and the others -/
def matchOf (primary : Bool) : Stmt → Option (Expr × Stmt)
  | .seq (.ite (.name p) (.ret _) .pass) (.seq (.assign a e) (.matchOn (.name b) cases)) =>
    if p = py!"primary" ∧ a = py!"application" ∧ b = a ∧ primary = false then some (e, cases) else none
  | .seq (.assign a e) (.ite (.name p) (.matchOn (.name b) c1) (.matchOn (.name c) c2)) =>
    if p = py!"primary" ∧ a = py!"application" ∧ b = a ∧ c = a then some (e, if primary then c1 else c2) else none
  | _ => none

/-- a `read` method without `match`, for primary records and the others -/
def simpleOf (primary : Bool) : Stmt → Option Expr
  | .ret e => some e
  | .seq (.ite (.name p) (.ret e) .pass) _ => if p = py!"primary" ∧ primary = true then some e else none
  | _ => none

/-- does the body of a `read` method do this? -/
def bodyIs (C : Class) (attrs : List (Str × Val)) (line : Str) (primary : Bool) (b : Stmt) : Branch → Bool
  | .always l => match simpleOf primary b with
    | some e => retIs C attrs line e l
    | none => false
  | .onApp sel cs o => match matchOf primary b with
    | some (e, cases) => selIs C attrs line e sel && casesAre C attrs line cases cs o
    | none => false

/-- does the class read records as the model says? -/
def readIs (C : Class) (attrs : List (Str × Val)) (d : Definition) : Bool :=
  (find attrs (py!"read")).isNone && match C.methods.lookup (py!"read") with
    | some ⟨[x, line, p], _, b⟩ => x == py!"self" && p == py!"primary" && (line == py!"line" || line == py!"r") &&
        bodyIs C attrs line true b d.onPrimary && bodyIs C attrs line false b d.onCont
    | _ => false

section
variable [PyUnicode]

/-- `Field(...)` makes a field -/
def MakesFields (E : Env) : Prop := ∀ (n v : Str) (fn : DecFn) (st : St),
  E.call (py!"Field") [.str n, .str v, .fn (Spec.nameOf fn)] st = (.ok (Spec.fieldVal ⟨n, v, fn⟩), st)

/-- a result of the model that has no `ValueError` -/
def plainRes {α : Type} (r : Except Exc α) (f : α → Val) : Except Err Val :=
  match r with
  | .ok a => .ok (f a)
  | .error e => .error (.fault (.other e))

theorem lift_index (s : Str) (i : Nat) (st : St) : lift (indexF s i) Val.str st = (plainRes (index s i) .str, st) := by
  unfold indexF lift plainRes
  cases index s i <;> rfl

variable {E : Env} {st : St} {cls : Str} {attrs : List (Str × Val)} {C : Class}

theorem eval_name {e : Expr} {n : Str} (hs : st.get (py!"self") = some (.obj cls attrs)) (h : nameIs attrs e n = true) :
    eval E e st = (.ok (.str n), st) := by
  unfold nameIs at h
  split at h
  · simp at h; subst h; rfl
  · simp only [Bool.and_eq_true, beq_iff_eq] at h
    obtain ⟨rfl, h⟩ := h
    split at h
    · next s hf =>
      simp only [beq_iff_eq] at h; subst h
      simp only [eval, hs, bindR_ok, getAttr, hf]
    · simp at h
  · simp at h

theorem eval_at {r line : Str} (hr : st.get r = some (.str line)) (i : Nat) :
    eval E (.sub (.name r) (.const (.int (.ofNat i)))) st = (plainRes (index line i) .str, st) := by
  simp only [eval, hr, bindR_ok, subscript, Int.ofNat_eq_natCast]
  rw [if_neg (by omega), Int.toNat_natCast, lift_index]

theorem eval_slice1 {e : Expr} {s : Slice} {r line : Str} (hs : st.get (py!"self") = some (.obj cls attrs))
    (hr : st.get r = some (.str line)) (hC : ∀ a, E.classAttr cls a = find C.attrs a) (h : sliceIs1 C attrs r e s = true) :
    eval E e st = (plainRes (s.eval line) .str, st) := by
  unfold sliceIs1 at h
  split at h
  · simp only [Bool.and_eq_true, beq_iff_eq] at h
    obtain ⟨rfl, rfl⟩ := h
    exact eval_at hr _
  · simp only [Bool.and_eq_true, beq_iff_eq, Option.isNone_iff_eq_none] at h
    obtain ⟨⟨⟨rfl, rfl⟩, ha⟩, h⟩ := h
    split at h
    · next i hf =>
      simp only [beq_iff_eq] at h; subst h
      simp only [eval, hr, hs, bindR_ok, getAttr, ha, hC, hf, subscript, Int.ofNat_eq_natCast, Slice.eval]
      rw [if_neg (by omega), Int.toNat_natCast, lift_index]
    · simp at h
  · simp only [Bool.and_eq_true, beq_iff_eq] at h
    obtain ⟨⟨rfl, rfl⟩, rfl⟩ := h
    simp only [eval, hr, bindR_ok, sliced, Int.ofNat_eq_natCast, Slice.eval, Int.toNat_natCast]
    rw [if_neg (by omega)]; rfl
  · simp only [Bool.and_eq_true, beq_iff_eq] at h
    obtain ⟨⟨⟨rfl, rfl⟩, rfl⟩, rfl⟩ := h
    simp only [eval.eq_6, eval_at hr, Slice.eval]
    rename_i x i y j
    cases h1 : index line i with
    | error e => rfl
    | ok a =>
      simp only [plainRes, bindR_ok, Bind.bind, Except.bind, eval_at hr]
      cases h2 : index line j with
      | error e => rfl
      | ok b => rfl
  · simp at h

theorem eval_slice {e : Expr} {s : Slice} {r line : Str} (hs : st.get (py!"self") = some (.obj cls attrs))
    (hr : st.get r = some (.str line)) (hC : ∀ a, E.classAttr cls a = find C.attrs a) (h : sliceIs C attrs r e s = true) :
    eval E e st = (plainRes (s.eval line) .str, st) := by
  unfold sliceIs at h
  split at h
  · simp only [Bool.and_eq_true, beq_iff_eq] at h
    obtain ⟨rfl, h⟩ := h
    split at h
    · next c hf =>
      simp only [eval, hs, bindR_ok, getAttr, hf, compare, answer, truth]
      split at h
      · next hc => simp only [hc, BEq.rfl, if_true]; exact eval_slice1 hs hr hC h
      · next hc => simp only [beq_iff_eq, hc, if_false]; exact eval_slice1 hs hr hC h
    · simp at h
  · exact eval_slice1 hs hr hC h

theorem evals_fields (hE : MakesFields E) {r line : Str} (hs : st.get (py!"self") = some (.obj cls attrs))
    (hr : st.get r = some (.str line)) (hC : ∀ a, E.classAttr cls a = find C.attrs a) :
    ∀ (l : Layout) (es : Exprs), fieldsAre C attrs r es l = true →
      bindR (evals E es st) (fun vs st => ((.ok (.list vs), st) : Res Val)) =
        (plainRes (readLayout line l) fun fs => .list (fs.map Spec.fieldVal), st) := by
  have key : ∀ (l : Layout) (es : Exprs), fieldsAre C attrs r es l = true →
      evals E es st = (match readLayout line l with
        | .ok fs => .ok (fs.map Spec.fieldVal)
        | .error e => .error (.fault (.other e)), st) := by
    intro l
    induction l with
    | nil =>
      intro es h
      cases es with
      | nil => rfl
      | cons e es => simp [fieldsAre] at h
    | cons s l ih =>
      intro es h
      unfold fieldsAre at h
      split at h
      · rename_i h0; simp at h0
      · rename_i f n v g es s' l' h0
        simp only [List.cons.injEq] at h0
        obtain ⟨rfl, rfl⟩ := h0
        simp only [Bool.and_eq_true, beq_iff_eq] at h
        obtain ⟨⟨⟨⟨rfl, hn⟩, hv⟩, rfl⟩, hl⟩ := h
        simp only [evals, eval, eval_name hs hn, eval_slice hs hr hC hv, bindR_ok, readLayout]
        cases hsl : Slice.eval line s.slice with
        | error e => simp [plainRes, bindR_error, Bind.bind, Except.bind]
        | ok a =>
          simp only [plainRes, bindR_ok, Bind.bind, Except.bind]
          rw [hE, bindR_ok, ih es hl]
          cases readLayout line l with
          | error e => rfl
          | ok fs => rfl
      · simp at h
  intro l es h
  rw [key l es h]
  cases readLayout line l <;> rfl

/-- what a list of fields is, as a result -/
def layoutRes (line : Str) (l : Layout) : Except Err Val := plainRes (readLayout line l) fun fs => .list (fs.map Spec.fieldVal)

theorem mutate_same (x : Str) (v : Val) (h : st.get x = some v) : st.mutate x v = st := by
  unfold St.mutate
  unfold St.get at h
  split
  · next w hw => rw [hw] at h; simp only [Option.some.injEq] at h; subst h; simp only [put_same _ _ _ hw]
  · next hw => rw [hw] at h; simp only [put_same _ _ _ h]

/-- a method of two parameters that returns an expression -/
theorem callMethod_ret {P : Prog} {m r : Str} {ds : List (Str × Val)} {e : Expr} {v w : Val} {res : Except Err Val}
    (hP : P.classes.lookup cls = some C) (hm : C.methods.lookup m = some ⟨[py!"self", r], ds, .ret e⟩)
    (h : eval E e { st with locals := [(py!"self", v), (r, w)] } = (res, { st with locals := [(py!"self", v), (r, w)] })) :
    P.callMethod E cls m v [w] st = (res, st, v) := by
  rw [Prog.callMethod]
  simp only [hP, Option.bind, hm, runBody, bindParams, Option.map, exec, h]
  cases res <;> simp [bindR, leave_error, leave_ret, selfOf, find]

/-- the call of a method through `self` -/
theorem eval_invoke {m line : Str} {text : Str} {res : Except Err Val} (hs : st.get (py!"self") = some (.obj cls attrs))
    (hl : st.get line = some (.str text)) (ha : find attrs m = none)
    (h : E.callMethod cls m (.obj cls attrs) [.str text] st = (res, st, .obj cls attrs)) :
    eval E (.invoke (.name (py!"self")) m (.cons (.name line) .nil)) st = (res, st) := by
  simp only [eval, evals, hs, hl, bindR_ok, ha, isName, Bool.not_true, Bool.or_false]
  have : ({ st with frozen := st.frozen } : St) = st := rfl
  rw [h]
  simp only [applyMethod, mutate_same _ _ hs]

/-- the program has the class, and makes fields -/
structure Runs (P : Prog) (sc : Screen) (cls : Str) (C : Class) : Prop where
  cls : P.classes.lookup cls = some C
  makes : ∀ n, MakesFields (P.env sc (n + 1))

theorem classAttr_env {P : Prog} (sc : Screen) (n : Nat) (hP : P.classes.lookup cls = some C) (a : Str) :
    (P.env sc n).classAttr cls a = find C.attrs a := by
  cases n <;> simp [Prog.env, Prog.classAttr, hP]

theorem eval_ret {P : Prog} {sc : Screen} {n : Nat} (R : Runs P sc cls C) {line text : Str} {e : Expr} {l : Layout}
    (hs : st.get (py!"self") = some (.obj cls attrs)) (hl : st.get line = some (.str text))
    (h : retIs C attrs line e l = true) :
    eval (P.env sc (n + 2)) e st = (layoutRes text l, st) := by
  unfold retIs at h
  split at h
  · rw [eval.eq_12]
    exact evals_fields (R.makes _) hs hl (classAttr_env sc _ R.cls) _ _ h
  · simp only [Bool.and_eq_true, beq_iff_eq, Option.isNone_iff_eq_none] at h
    obtain ⟨⟨⟨rfl, rfl⟩, ha⟩, h⟩ := h
    split at h
    · next p r ds es hm =>
      simp only [Bool.and_eq_true, beq_iff_eq] at h
      obtain ⟨⟨rfl, rfl⟩, h⟩ := h
      refine eval_invoke hs hl ha ?_
      rw [env_callMethod]
      refine callMethod_ret R.cls hm ?_
      rw [eval.eq_12]
      refine evals_fields (R.makes _) (cls := cls) (attrs := attrs) ?_ ?_ (classAttr_env sc _ R.cls) _ _ h
      · simp [St.get, find]
      · simp [St.get, find]
    · simp at h
  · simp at h

theorem eval_sel {P : Prog} {sc : Screen} {n : Nat} (R : Runs P sc cls C) {line text : Str} {e : Expr} {s : Slice}
    (hs : st.get (py!"self") = some (.obj cls attrs)) (hl : st.get line = some (.str text))
    (h : selIs C attrs line e s = true) :
    eval (P.env sc (n + 2)) e st = (plainRes (s.eval text) .str, st) := by
  unfold selIs at h
  split at h
  · simp only [Bool.and_eq_true, beq_iff_eq, Option.isNone_iff_eq_none] at h
    obtain ⟨⟨⟨rfl, rfl⟩, ha⟩, h⟩ := h
    split at h
    · next p r ds es hm =>
      simp only [Bool.and_eq_true, beq_iff_eq] at h
      obtain ⟨⟨rfl, rfl⟩, h⟩ := h
      refine eval_invoke hs hl ha ?_
      rw [env_callMethod]
      refine callMethod_ret R.cls hm ?_
      refine eval_slice1 (cls := cls) (attrs := attrs) ?_ ?_ (classAttr_env sc _ R.cls) h
      · simp [St.get, find]
      · simp [St.get, find]
    · simp at h
  · exact eval_slice1 hs hl (classAttr_env sc _ R.cls) h

/-- what the cases of a `match` do -/
def casesRes (text app : Str) (raised : List Str) (cs : List (Str × Layout)) (o : Other) : Except Err Val :=
  match cs.lookup app with
  | some l => layoutRes text l
  | none =>
    match o with
    | .empty => .ok (.list [])
    | .raise => .error (.fault (.value raised))
    | .layout l => layoutRes text l

/-- the value a statement returns -/
def retFlow (r : Except Err Val) : Except Err Flow := r.map .ret

theorem exec_retIs {e : Expr} {r : Except Err Val} (h : eval E e st = (r, st)) : exec E (.ret e) st = (retFlow r, st) := by
  rw [exec, h]
  cases r <;> rfl

theorem evals_raised {sel : Slice} {line text app : Str} {args : Exprs} {ss : List Str}
    (hs : st.get (py!"self") = some (.obj cls attrs)) (hl : st.get line = some (.str text))
    (hC : ∀ a, E.classAttr cls a = find C.attrs a)
    (happ : st.get (py!"application") = some (.str app)) (hsel : sel.eval text = .ok app)
    (h : raisedText C attrs line sel app text args = some ss) :
    exec E (.raise args) st = (.error (.fault (.value ss)), st) := by
  unfold raisedText at h
  split at h
  · simp at h; subst h; rfl
  · split at h
    · next h1 =>
      simp at h; subst h
      simp [exec, evals, eval, bindR_ok, eval_slice1 hs hl hC h1, hsel, plainRes, texts]
    · simp at h
  · split at h
    · next h1 =>
      obtain ⟨rfl, rfl⟩ := h1
      simp at h; subst h
      simp [exec, evals, eval, bindR_ok, happ, hl, texts, Lang.format, plainText, asText]
    · simp at h
  · simp at h

theorem exec_cases {P : Prog} {sc : Screen} {n : Nat} (R : Runs P sc cls C) {line text app : Str} {sel : Slice} {ss : List Str}
    (hs : st.get (py!"self") = some (.obj cls attrs)) (hl : st.get line = some (.str text))
    (happ : st.get (py!"application") = some (.str app)) (hsub : find st.locals subject = some (.str app))
    (hsel : sel.eval text = .ok app) :
    ∀ (cs : List (Str × Layout)) (b : Stmt) (o : Other), casesAre C attrs line b cs o = true →
      (o = .raise → (raiseArgs b).bind (raisedText C attrs line sel app text) = some ss) →
      exec (P.env sc (n + 2)) b st = (retFlow (casesRes text app ss cs o), st) := by
  intro cs
  induction cs with
  | nil =>
    intro b o h hr
    unfold casesAre at h
    split at h
    · simp at *
    · rw [exec_retIs (r := .ok (.list [])) (by rfl)]; rfl
    · next args h1 h2 =>
      exact evals_raised hs hl (classAttr_env sc _ R.cls) happ hsel (hr rfl)
    · next e l h1 h2 => exact exec_retIs (eval_ret R hs hl h)
    · simp at h
  | cons c cs ih =>
    intro b o h hr
    unfold casesAre at h
    split at h
    · next s e rest k l cs' h0 =>
      simp only [List.cons.injEq] at h0
      obtain ⟨rfl, rfl⟩ := h0
      simp only [Bool.and_eq_true, beq_iff_eq] at h
      obtain ⟨⟨rfl, h1⟩, h2⟩ := h
      simp only [exec.eq_12, hsub, equal, casesRes, List.lookup]
      by_cases hk : app = s
      · subst hk
        simp only [BEq.rfl, if_true]
        exact exec_retIs (eval_ret R hs hl h1)
      · have hk' : (app == s) = false := by simpa using hk
        simp only [hk', Bool.false_eq_true, if_false]
        exact ih rest _ h2 hr
    all_goals simp at *

/-- what a branch does -/
def branchRes (text : Str) (raised : Str → List Str) : Branch → Except Err Val
  | .always l => layoutRes text l
  | .onApp sel cs o =>
    match sel.eval text with
    | .ok app => casesRes text app (raised app) cs o
    | .error e => .error (.fault (.other e))

theorem bindR_retFlow (r : Except Err Val) (st : St) (b : St → Res Flow) :
    bindR (retFlow r, st) (fun fl st => match fl with
      | .next => b st
      | fl => (.ok fl, st)) = (retFlow r, st) := by cases r <;> rfl

theorem exec_match {P : Prog} {sc : Screen} {n : Nat} (R : Runs P sc cls C) {line text : Str} {sel : Slice} {e : Expr}
    {cases : Stmt} {cs : List (Str × Layout)} {o : Other} {raised : Str → List Str} {pv : Val}
    (hline : line = py!"line" ∨ line = py!"r")
    (hst : st.locals = [(py!"self", .obj cls attrs), (line, .str text), (py!"primary", pv)])
    (h1 : selIs C attrs line e sel = true) (h2 : casesAre C attrs line cases cs o = true)
    (hr : o = .raise → ∀ app, sel.eval text = .ok app →
      (raiseArgs cases).bind (raisedText C attrs line sel app text) = some (raised app)) :
    ∃ vars, exec (P.env sc (n + 2)) (.seq (.assign (py!"application") e) (.matchOn (.name (py!"application")) cases)) st =
      (retFlow (branchRes text raised (.onApp sel cs o)), { st with locals := vars }) ∧
      find vars (py!"self") = some (.obj cls attrs) := by
  have hs : st.get (py!"self") = some (.obj cls attrs) := by simp [St.get, hst, find]
  have hl : st.get line = some (.str text) := by rcases hline with rfl | rfl <;> simp [St.get, hst, find]
  simp only [exec.eq_2, exec.eq_5, exec.eq_11, eval_sel R hs hl h1, branchRes]
  cases hsel : Slice.eval text sel with
  | error x => exact ⟨st.locals, rfl, by simp [hst, find]⟩
  | ok app =>
    have hget : (st.assign (py!"application") (.str app)).get (py!"application") = some (.str app) := by
      rcases hline with rfl | rfl <;> simp [St.get, St.assign, hst, find, put]
    simp only [plainRes, bindR_ok, eval, hget]
    refine ⟨((st.assign (py!"application") (.str app)).assign subject (.str app)).locals, ?_, ?_⟩
    · rw [exec_cases (st := (st.assign (py!"application") (.str app)).assign subject (.str app)) (ss := raised app) R
        (cls := cls) (attrs := attrs) (line := line) (text := text) (app := app) (sel := sel) ?_ ?_ ?_ ?_ hsel cs cases o h2 fun ho => hr ho app hsel]
      · rfl
      all_goals rcases hline with rfl | rfl <;> simp [St.get, St.assign, hst, find, put, subject]
    · rcases hline with rfl | rfl <;> simp [St.assign, hst, find, put, subject]

theorem exec_body {P : Prog} {sc : Screen} {n : Nat} (R : Runs P sc cls C) {line text : Str} {primary : Bool} {b : Stmt}
    {br : Branch} {raised : Str → List Str} (hline : line = py!"line" ∨ line = py!"r")
    (hst : st.locals = [(py!"self", .obj cls attrs), (line, .str text), (py!"primary", .bool primary)])
    (h : bodyIs C attrs line primary b br = true)
    (hr : ∀ sel cs, br = .onApp sel cs .raise → ∀ app, sel.eval text = .ok app →
      ((matchOf primary b).bind fun p => raiseArgs p.2).bind (raisedText C attrs line sel app text) = some (raised app)) :
    ∃ vars, exec (P.env sc (n + 2)) b st = (retFlow (branchRes text raised br), { st with locals := vars }) ∧
      find vars (py!"self") = some (.obj cls attrs) := by
  have hs : st.get (py!"self") = some (.obj cls attrs) := by simp [St.get, hst, find]
  have hl : st.get line = some (.str text) := by rcases hline with rfl | rfl <;> simp [St.get, hst, find]
  have hp : st.get (py!"primary") = some (.bool primary) := by rcases hline with rfl | rfl <;> simp [St.get, hst, find]
  have hv : find st.locals (py!"self") = some (.obj cls attrs) := by simp [hst, find]
  unfold bodyIs at h
  split at h
  · next l =>
    split at h
    · next e he =>
      unfold simpleOf at he
      split at he
      · simp only [Option.some.injEq] at he; subst he
        exact ⟨st.locals, exec_retIs (eval_ret R hs hl h), hv⟩
      · split at he
        · next h1 =>
          obtain ⟨rfl, rfl⟩ := h1
          simp only [Option.some.injEq] at he; subst he
          refine ⟨st.locals, ?_, hv⟩
          rw [exec.eq_2, exec.eq_10]
          simp only [eval, hp, bindR_ok, truth, if_true, exec_retIs (eval_ret R hs hl h), branchRes]
          exact bindR_retFlow _ _ _
        · simp at he
      · simp at he
    · simp at h
  · next sel cs o =>
    split at h
    · next e cases he =>
      simp only [Bool.and_eq_true] at h
      obtain ⟨h1, h2⟩ := h
      have hr' : o = .raise → ∀ app, sel.eval text = .ok app →
          (raiseArgs cases).bind (raisedText C attrs line sel app text) = some (raised app) := by
        rintro rfl app ha
        have := hr sel cs rfl app ha
        simpa [he] using this
      unfold matchOf at he
      split at he
      · split at he
        · next h3 =>
          obtain ⟨rfl, rfl, rfl, rfl⟩ := h3
          simp only [Option.some.injEq, Prod.mk.injEq] at he
          obtain ⟨rfl, rfl⟩ := he
          rw [exec.eq_2, exec.eq_10]
          simp only [eval, hp, bindR_ok, truth, Bool.false_eq_true, if_false, exec.eq_1]
          exact exec_match R hline hst h1 h2 hr'
        · simp at he
      · split at he
        · next a e' p b1 c1 c c2 h3 =>
          obtain ⟨rfl, rfl, rfl, rfl⟩ := h3
          simp only [Option.some.injEq, Prod.mk.injEq] at he
          obtain ⟨rfl, rfl⟩ := he
          obtain ⟨vars, hv1, hv2⟩ := exec_match (n := n) R hline hst h1 h2 hr'
          refine ⟨vars, ?_, hv2⟩
          rw [← hv1]
          simp only [exec.eq_2, exec.eq_5, exec.eq_10, eval_sel R hs hl h1]
          cases hsel : Slice.eval text sel with
          | error x => rfl
          | ok app =>
            have hp' : (st.assign (py!"application") (.str app)).get (py!"primary") = some (.bool primary) := by
              rcases hline with rfl | rfl <;> simp [St.get, St.assign, hst, find, put]
            simp only [plainRes, bindR_ok, eval, hp', truth]
            cases primary <;> rfl
        · simp at he
      · simp at he
    · simp at h

/-- the `read` method -/
theorem callMethod_read {P : Prog} {sc : Screen} {n : Nat} (R : Runs P sc cls C) {text : Str} {primary : Bool}
    {d : Definition} {raised : Str → List Str} {line : Str} {ds : List (Str × Val)} {b : Stmt}
    (hm : C.methods.lookup (py!"read") = some ⟨[py!"self", line, py!"primary"], ds, b⟩)
    (h : readIs C attrs d = true)
    (hr : ∀ sel cs, (if primary then d.onPrimary else d.onCont) = .onApp sel cs .raise → ∀ app, sel.eval text = .ok app →
      ((matchOf primary b).bind fun p => raiseArgs p.2).bind (raisedText C attrs line sel app text) = some (raised app)) :
    P.callMethod (P.env sc (n + 2)) cls (py!"read") (.obj cls attrs) [.str text, .bool primary] st =
      (branchRes text raised (if primary then d.onPrimary else d.onCont), st, .obj cls attrs) := by
  unfold readIs at h
  rw [hm] at h
  simp only [Bool.and_eq_true, beq_iff_eq, Bool.or_eq_true, BEq.rfl, true_and] at h
  obtain ⟨-, ⟨hline, h1⟩, h2⟩ := h
  have hb : bodyIs C attrs line primary b (if primary then d.onPrimary else d.onCont) = true := by
    cases primary
    · exact h2
    · exact h1
  obtain ⟨vars, hv1, hv2⟩ := exec_body (n := n) (st := { st with locals := [(py!"self", .obj cls attrs), (line, .str text), (py!"primary", .bool primary)] })
    R hline rfl hb hr
  rw [Prog.callMethod]
  simp only [R.cls, Option.bind, hm, runBody, bindParams, Option.map]
  rw [hv1]
  cases branchRes text raised (if primary then d.onPrimary else d.onCont) <;>
    simp [retFlow, Except.map, leave_error, leave_ret, selfOf, hv2]

end
end Arinc.Lang
