import Verif.Lemmas.Source
/-!
# Lemmas: running the source of decoder.py, functions with tables
-/
namespace Arinc.Lang
open Py

/-- `d[k] = x` for the entries of a table, then the rest -/
def fill (d : Str) : List (Str × Str) → Stmt → Stmt
  | [], rest => rest
  | (k, x) :: t, rest => .seq (.setItem d (.const (.str k)) (.const (.str x))) (fill d t rest)

/-- `d[k] = x` for the entries of a table -/
def fillOnly (d : Str) : List (Str × Str) → Stmt
  | [] => .pass
  | [(k, x)] => .setItem d (.const (.str k)) (.const (.str x))
  | (k, x) :: t => .seq (.setItem d (.const (.str k)) (.const (.str x))) (fillOnly d t)

/-- `case k: a(x)` for the entries of a table, then the last case -/
def choose (a : Str → Stmt) : List (Str × Str) → Stmt → Stmt
  | [], rest => rest
  | (k, x) :: t, rest => .case (.str k) (a x) (choose a t rest)

/-- `return x` -/
def retText (x : Str) : Stmt := .ret (.const (.str x))

/-- `s.write(x)` -/
def writeText (x : Str) : Stmt := .expr (.method (.name (py!"s")) .write (.cons (.const (.str (x ++ [10]))) .nil))

/-- the entries one after the other -/
def putAll (items : List (Str × Val)) : List (Str × Str) → List (Str × Val)
  | [] => items
  | (k, x) :: t => putAll (put items k (.str x)) t

theorem lookup_ofItems (t : List (Str × Str)) (k : Str) : (ofItems t).lookup k = (t.lookup k).map .str := by
  induction t with
  | nil => rfl
  | cons p t ih =>
    obtain ⟨a, b⟩ := p
    show List.lookup k ((a, Val.str b) :: ofItems t) = _
    rw [List.lookup_cons, List.lookup_cons, ih]
    cases k == a <;> rfl

theorem ofItems_append (t : List (Str × Str)) (k x : Str) : ofItems (t ++ [(k, x)]) = ofItems t ++ [(k, .str x)] := by
  simp [ofItems]

section
variable [PyUnicode]
variable (E : Env) (v : Str) (rv : Val) (st : St)

theorem exec_setItem (d k x : Str) (dflt : Val) (items g : List (Str × Val)) (o : List Str) (f : Bool)
    (h1 : d ≠ py!"value") (h2 : d ≠ py!"record") :
    exec E (.setItem d (.const (.str k)) (.const (.str x)))
      ⟨[(py!"value", .str v), (py!"record", rv), (d, .dict dflt items)], g, o, f⟩ =
    (.ok .next, ⟨[(py!"value", .str v), (py!"record", rv), (d, .dict dflt (put items k (.str x)))], g, o, f⟩) := by
  simp [exec, eval, bindR_ok, St.get, St.mutate, find, put, h1.symm, h2.symm]

theorem exec_fill (d : Str) (dflt : Val) (g : List (Str × Val)) (o : List Str) (f : Bool)
    (h1 : d ≠ py!"value") (h2 : d ≠ py!"record") (rest : Stmt) (t : List (Str × Str)) (items : List (Str × Val)) :
    exec E (fill d t rest) ⟨[(py!"value", .str v), (py!"record", rv), (d, .dict dflt items)], g, o, f⟩ =
    exec E rest ⟨[(py!"value", .str v), (py!"record", rv), (d, .dict dflt (putAll items t))], g, o, f⟩ := by
  induction t generalizing items with
  | nil => rfl
  | cons p t ih =>
    obtain ⟨k, x⟩ := p
    rw [fill, exec, exec_setItem E v rv d k x dflt items g o f h1 h2, bindR_ok, putAll]
    exact ih _

theorem exec_fillOnly (d : Str) (dflt : Val) (g : List (Str × Val)) (o : List Str) (f : Bool)
    (h1 : d ≠ py!"value") (h2 : d ≠ py!"record") (t : List (Str × Str)) (items : List (Str × Val)) :
    exec E (fillOnly d t) ⟨[(py!"value", .str v), (py!"record", rv), (d, .dict dflt items)], g, o, f⟩ =
    (.ok .next, ⟨[(py!"value", .str v), (py!"record", rv), (d, .dict dflt (putAll items t))], g, o, f⟩) := by
  induction t generalizing items with
  | nil => rfl
  | cons p t ih =>
    obtain ⟨k, x⟩ := p
    cases t with
    | nil => exact exec_setItem E v rv d k x dflt items g o f h1 h2
    | cons q t =>
      rw [fillOnly, exec, exec_setItem E v rv d k x dflt items g o f h1 h2, bindR_ok, putAll]
      · exact ih _
      · simp

theorem exec_choose (a : Str → Stmt) (rest : Stmt) (s : Str) (t : List (Str × Str)) (st : St)
    (h : find st.locals subject = some (.str s)) :
    exec E (choose a t rest) st = match t.lookup s with
      | some x => exec E (a x) st
      | none => exec E rest st := by
  induction t with
  | nil => rfl
  | cons p t ih =>
    obtain ⟨k, x⟩ := p
    rw [choose, exec, h, List.lookup_cons]
    simp only [equal]
    cases hk : s == k
    · simpa using ih
    · simp

/-- `d[value]` -/
theorem eval_item (d : Str) (t : List (Str × Str)) (g : List (Str × Val)) (o : List Str) (f : Bool)
    (h1 : d ≠ py!"value") (h2 : d ≠ py!"record") :
    ∃ t', lookupD t' v = lookupD t v ∧
      eval E (.sub (.name d) (.name (py!"value")))
        ⟨[(py!"value", .str v), (py!"record", rv), (d, .dict (.str unknown) (ofItems t))], g, o, f⟩ =
      (.ok (.str (lookupD t v)),
        ⟨[(py!"value", .str v), (py!"record", rv), (d, .dict (.str unknown) (ofItems t'))], g, o, f⟩) := by
  cases h : t.lookup v with
  | some x =>
    refine ⟨t, rfl, ?_⟩
    simp [eval, bindR_ok, St.get, find, h1.symm, h2.symm, subscript, lookup_ofItems, h, lookupD]
  | none =>
    refine ⟨t ++ [(v, unknown)], ?_, ?_⟩
    · simp [lookupD, List.lookup_append, h]
    · simp [eval, bindR_ok, St.get, find, h1.symm, h2.symm, subscript, lookup_ofItems, h, lookupD, St.mutate, put, ofItems_append]

/-- `return d[value]` -/
theorem exec_item (d : Str) (t : List (Str × Str)) (g : List (Str × Val)) (o : List Str) (f : Bool)
    (h1 : d ≠ py!"value") (h2 : d ≠ py!"record") :
    ∃ l, exec E (.ret (.sub (.name d) (.name (py!"value"))))
        ⟨[(py!"value", .str v), (py!"record", rv), (d, .dict (.str unknown) (ofItems t))], g, o, f⟩ =
      (.ok (.ret (.str (lookupD t v))), ⟨l, g, o, f⟩) := by
  obtain ⟨t', -, h⟩ := eval_item E v rv d t g o f h1 h2
  rw [exec, h]
  exact ⟨_, rfl⟩

/-- `return d[value] if d[value] != bad else value + text` -/
theorem exec_itemOr (d bad text : Str) (t : List (Str × Str)) (g : List (Str × Val)) (o : List Str) (f : Bool)
    (h1 : d ≠ py!"value") (h2 : d ≠ py!"record") :
    ∃ l, exec E (.ret (.cond (.cmp .ne (.sub (.name d) (.name (py!"value"))) (.const (.str bad)))
          (.sub (.name d) (.name (py!"value"))) (.bin .add (.name (py!"value")) (.const (.str text)))))
        ⟨[(py!"value", .str v), (py!"record", rv), (d, .dict (.str unknown) (ofItems t))], g, o, f⟩ =
      (.ok (.ret (.str (if lookupD t v ≠ bad then lookupD t v else v ++ text))), ⟨l, g, o, f⟩) := by
  obtain ⟨t', ht, h⟩ := eval_item E v rv d t g o f h1 h2
  obtain ⟨t'', -, h'⟩ := eval_item E v rv d t' g o f h1 h2
  rw [exec, eval, eval, h, bindR_ok, eval, bindR_ok, compare]
  by_cases hb : lookupD t v = bad
  · refine ⟨[(py!"value", .str v), (py!"record", rv), (d, .dict (.str unknown) (ofItems t'))], ?_⟩
    simp [equal, hb, answer, bindR_ok, truth, eval, St.get, find, binary]
  · refine ⟨[(py!"value", .str v), (py!"record", rv), (d, .dict (.str unknown) (ofItems t''))], ?_⟩
    simp [equal, hb, answer, bindR_ok, truth, h', ht]

/-- a function that fills a table and looks the value up in it -/
theorem dict_case (F : Func) (t : List (Str × Str))
    (hp : F.params = [py!"value", py!"record"])
    (hF : F.body = .seq (.assign (py!"d") (.const (.dict (.str unknown) []))) (fill (py!"d") t
      (.ret (.cond (.cmp .ne (.sub (.name (py!"d")) (.name (py!"value"))) (.const (.str (py!"bad value"))))
        (.sub (.name (py!"d")) (.name (py!"value")))
        (.bin .add (.name (py!"value")) (.const (.str (py!"BAD VALUE"))))))))
    (ht : putAll [] t = ofItems t) :
    outcome (runBody E F [.str v, rv] st) = (ofPlain (dictCase t v), st) := by
  simp only [runBody, hp, hF, bindParams, Option.map]
  rw [exec, exec, eval, bindR_ok, bindR_ok]
  simp only [St.assign, put]
  simp only [show ((py!"value" : Str) = py!"d") = False from by simp, show ((py!"record" : Str) = py!"d") = False from by simp, if_false]
  rw [exec_fill E v rv _ _ _ _ _ (by simp) (by simp), ht]
  obtain ⟨l, h⟩ := exec_itemOr E v rv (py!"d") (py!"bad value") (py!"BAD VALUE") t st.globals st.out st.frozen (by simp) (by simp)
  rw [h]
  rfl

theorem src_101 : outcome (runBody E Src.field_101 [.str v, rv] st) = (ofPlain (field_101 v), st) :=
  dict_case E v rv st _ t101 rfl rfl rfl

theorem src_104 : outcome (runBody E Src.field_104 [.str v, rv] st) = (ofPlain (field_104 v), st) :=
  dict_case E v rv st _ t104 rfl rfl rfl

theorem src_181 : outcome (runBody E Src.field_181 [.str v, rv] st) = (ofPlain (field_181 v), st) :=
  dict_case E v rv st _ t181 rfl rfl rfl

theorem src_198 : outcome (runBody E Src.field_198 [.str v, rv] st) = (ofPlain (field_198 v), st) :=
  dict_case E v rv st _ t198 rfl rfl rfl


/-- `if value.strip() == "": return value` -/
def blankFirst (rest : Stmt) : Stmt :=
  .seq (.ite (.cmp .eq (.method (.name (py!"value")) .strip .nil) (.const (.str (py!"")))) (.ret (.name (py!"value"))) .pass) rest

theorem exec_blankFirst (rest : Stmt) (g : List (Str × Val)) (o : List Str) (f : Bool) :
    exec E (blankFirst rest) ⟨[(py!"value", .str v), (py!"record", rv)], g, o, f⟩ =
    if strip v = [] then (.ok (.ret (.str v)), ⟨[(py!"value", .str v), (py!"record", rv)], g, o, f⟩)
    else exec E rest ⟨[(py!"value", .str v), (py!"record", rv)], g, o, f⟩ := by
  by_cases h : strip v = [] <;>
  simp [blankFirst, exec, eval, evals, bindR_ok, St.get, find, callMeth, applyMeth, compare, equal, answer, truth, h]

/-- a function that fills a table and looks the value up in it, unless the value is blank -/
theorem dict_item (F : Func) (d : Str) (t : List (Str × Str)) (h1 : d ≠ py!"value") (h2 : d ≠ py!"record")
    (hp : F.params = [py!"value", py!"record"])
    (hF : F.body = blankFirst (.seq (.assign d (.const (.dict (.str unknown) []))) (fill d t
      (.ret (.sub (.name d) (.name (py!"value")))))))
    (ht : putAll [] t = ofItems t) :
    outcome (runBody E F [.str v, rv] st) =
      (ofPlain (if strip v = [] then ret v else ret (lookupD t v)), st) := by
  simp only [runBody, hp, hF, bindParams, Option.map]
  rw [exec_blankFirst]
  by_cases hb : strip v = []
  · rw [if_pos hb, if_pos hb]; rfl
  rw [if_neg hb, if_neg hb, exec, exec, eval, bindR_ok, bindR_ok]
  simp only [St.assign, put, h1.symm, h2.symm, if_false]
  rw [exec_fill E v rv _ _ _ _ _ h1 h2, ht]
  obtain ⟨l, h⟩ := exec_item E v rv d t st.globals st.out st.frozen h1 h2
  rw [h]
  rfl

theorem src_004 : outcome (runBody E Src.field_004 [.str v, rv] st) = (ofPlain (field_004 v), st) :=
  dict_item E v rv st _ (py!"sections") t004 (by simp) (by simp) rfl rfl rfl

theorem src_106 : outcome (runBody E Src.field_106 [.str v, rv] st) = (ofPlain (field_106 v), st) :=
  dict_item E v rv st _ (py!"sections") t106 (by simp) (by simp) rfl rfl rfl

theorem src_199 : outcome (runBody E Src.field_199 [.str v, rv] st) = (ofPlain (field_199 v), st) := by
  have hF : Src.field_199.body = blankFirst (.seq (.assign (py!"d") (.const (.dict (.str unknown) []))) (fill (py!"d") t199
      (.ret (.cond (.cmp .ne (.sub (.name (py!"d")) (.name (py!"value"))) (.const (.str (py!"bad value"))))
        (.sub (.name (py!"d")) (.name (py!"value")))
        (.bin .add (.name (py!"value")) (.const (.str (py!"BAD VALUE")))))))) := rfl
  simp only [runBody, hF, show Src.field_199.params = [py!"value", py!"record"] from rfl, bindParams, Option.map]
  rw [exec_blankFirst, field_199]
  by_cases hb : strip v = []
  · rw [if_pos hb, if_pos hb]; rfl
  rw [if_neg hb, if_neg hb]
  rw [← dict_case E v rv st ⟨[py!"value", py!"record"], [], .seq (.assign (py!"d") (.const (.dict (.str unknown) []))) (fill (py!"d") t199
      (.ret (.cond (.cmp .ne (.sub (.name (py!"d")) (.name (py!"value"))) (.const (.str (py!"bad value"))))
        (.sub (.name (py!"d")) (.name (py!"value")))
        (.bin .add (.name (py!"value")) (.const (.str (py!"BAD VALUE")))))))⟩ t199 rfl rfl rfl]
  simp only [runBody, bindParams, Option.map]

theorem src_003 : outcome (runBody E Src.field_003 [.str v, rv] st) = (ofPlain (field_003 v), st) := by
  have hF : Src.field_003.body = .matchOn (.name (py!"value")) (choose retText t003 (.ret (.const (.str (py!"<UNKNOWN>"))))) := rfl
  simp only [runBody, hF, show Src.field_003.params = [py!"value", py!"record"] from rfl, bindParams, Option.map, exec, eval,
    St.get, find, if_true, bindR_ok]
  rw [exec_choose E retText _ v t003 _ (by simp [St.assign, put, find, subject])]
  simp only [field_003]
  cases t003.lookup v <;> simp [exec, eval, retText, bindR_ok, leave_ret, outcome_mk, ret, ofPlain_ok, ofPyVal, St.assign]

theorem src_091 : outcome (runBody E Src.field_091 [.str v, rv] st) = (ofPlain (field_091 v), st) := by
  have hF : Src.field_091.body = .matchOn (.name (py!"value")) (choose retText t091
    (.ret (.bin .add (.const (.str (py!"Unknown Application Type: "))) (.prim .str (.cons (.name (py!"value")) .nil))))) := rfl
  simp only [runBody, hF, show Src.field_091.params = [py!"value", py!"record"] from rfl, bindParams, Option.map, exec, eval,
    St.get, find, if_true, bindR_ok]
  rw [exec_choose E retText _ v t091 _ (by simp [St.assign, put, find, subject])]
  simp only [field_091]
  cases t091.lookup v <;> simp [exec, eval, retText, bindR_ok, leave_ret, outcome_mk, ret, ofPlain_ok, ofPyVal, St.get, find,
    St.assign, put, subject, binary, evals, callPrim, asText, plainText]

theorem exec_pass : exec E .pass st = (.ok .next, st) := by rw [exec]

/-- `match value[i]:` -/
theorem exec_matchIndex (i : Nat) (cs : Stmt) (more g : List (Str × Val)) (o : List Str) (f : Bool) :
    exec E (.matchOn (.sub (.name (py!"value")) (.const (.int i))) cs) ⟨(py!"value", .str v) :: more, g, o, f⟩ =
    match index v i with
    | .ok c => exec E cs (St.assign ⟨(py!"value", .str v) :: more, g, o, f⟩ subject (.str c))
    | .error e => (.error (.fault (.other e)), ⟨(py!"value", .str v) :: more, g, o, f⟩) := by
  have h : ¬ ((i : Int) < 0) := by omega
  simp only [exec, eval, St.get, find, if_true, bindR_ok, subscript, if_neg h, Int.toNat_natCast, indexF]
  cases index v i <;> simp [lift, bindR_ok, bindR_error]

theorem src_196 : outcome (runBody E Src.field_196 [.str v, rv] st) = (ofPlain (field_196 v), st) := by
  have hF : Src.field_196.body = .seq (.matchOn (.sub (.name (py!"value")) (.const (.int (0 : Nat)))) (choose retText t196_0 .pass))
    (.matchOn (.sub (.name (py!"value")) (.const (.int (1 : Nat)))) (choose retText t196_1
    (.ret (.const (.str (py!"Unknown Name Format Indicator")))))) := rfl
  simp only [runBody, hF, show Src.field_196.params = [py!"value", py!"record"] from rfl, bindParams, Option.map]
  rw [exec, exec_matchIndex, field_196]
  cases h0 : index v 0 with
  | error e => simp [bindR_error, leave_error, outcome_mk, ofPlain_error, Bind.bind, Except.bind]
  | ok c =>
    simp only [St.assign, put, subject, Bind.bind, Except.bind]
    rw [exec_choose E retText _ c t196_0 _ (by simp [find, subject])]
    cases h1 : t196_0.lookup c with
    | some x => simp [retText, exec, eval, bindR_ok, leave_ret, outcome_mk, ret, ofPlain_ok, ofPyVal]
    | none =>
      simp only [exec_pass, bindR_ok]
      simp only [if_false, show ((py!"value" : Str) = py!"match") = False from by simp, show ((py!"record" : Str) = py!"match") = False from by simp]
      rw [exec_matchIndex]
      cases h2 : index v 1 with
      | error e => simp [leave_error, outcome_mk, ofPlain_error]
      | ok c' =>
        simp only []
        rw [exec_choose E retText _ c' t196_1 _ (by simp [St.assign, put, find, subject])]
        cases t196_1.lookup c' <;> simp [retText, exec, eval, bindR_ok, leave_ret, outcome_mk, ret, ofPlain_ok, ofPyVal, St.assign]

theorem src_042 : outcome (runBody E Src.field_042 [.str v, rv] st) = (ofPlain (field_042 v), st) := by
  have hF : Src.field_042.body = .seq (.matchOn (.sub (.name (py!"value")) (.const (.int (0 : Nat)))) (choose retText (t042_0.take 2)
      (.case (.str (py!"N")) (.ret (.bin .add (.const (.str (py!"NDB Navaid as Waypoint"))) (.slice (.name (py!"value")) (some 1) none)))
      (choose retText (t042_0.drop 2) .pass))))
    (.matchOn (.sub (.name (py!"value")) (.const (.int (1 : Nat)))) (choose retText t042_1
    (.ret (.const (.str (py!"Unknown Waypoint Type")))))) := rfl
  simp only [runBody, hF, show Src.field_042.params = [py!"value", py!"record"] from rfl, bindParams, Option.map]
  rw [exec, exec_matchIndex, field_042]
  cases h0 : index v 0 with
  | error e => simp [bindR_error, leave_error, outcome_mk, ofPlain_error, Bind.bind, Except.bind]
  | ok c =>
    simp only [St.assign, put, subject, Bind.bind, Except.bind]
    rw [exec_choose E retText _ c (t042_0.take 2) _ (by simp [find, subject])]
    by_cases hN : c = py!"N"
    · subst hN
      have : (t042_0.take 2).lookup (py!"N") = none := by decide
      simp [this, exec, find, subject, equal, eval, bindR_ok, St.get, sliced, binary, leave_ret, outcome_mk, ret, ofPlain_ok, ofPyVal]
    rw [if_neg hN]
    have hl : t042_0.lookup c = ((t042_0.take 2).lookup c).or ((t042_0.drop 2).lookup c) := by
      rw [← List.lookup_append, List.take_append_drop]
    rw [hl]
    cases h1 : (t042_0.take 2).lookup c with
    | some x => simp [retText, exec, eval, bindR_ok, leave_ret, outcome_mk, ret, ofPlain_ok, ofPyVal]
    | none =>
      simp only [Option.none_or]
      rw [exec]
      simp only [find, subject, if_false, if_true, show ((py!"value" : Str) = py!"match") = False from by simp,
        show ((py!"record" : Str) = py!"match") = False from by simp, equal, beq_iff_eq, hN]
      rw [exec_choose E retText _ c (t042_0.drop 2) _ (by simp [find, subject])]
      cases h2 : (t042_0.drop 2).lookup c with
      | some x => simp [retText, exec, eval, bindR_ok, leave_ret, outcome_mk, ret, ofPlain_ok, ofPyVal]
      | none =>
        simp only [exec_pass, bindR_ok]
        rw [exec_matchIndex]
        cases h2 : index v 1 with
        | error e => simp [leave_error, outcome_mk, ofPlain_error]
        | ok c' =>
          simp only []
          rw [exec_choose E retText _ c' t042_1 _ (by simp [St.assign, put, find, subject])]
          cases t042_1.lookup c' <;> simp [retText, exec, eval, bindR_ok, leave_ret, outcome_mk, ret, ofPlain_ok, ofPyVal, St.assign]

/-- the part of field_017 for one character -/
def block (i : Nat) (t : List (Str × Str)) (rest : Stmt) : Stmt :=
  .seq (.matchOn (.sub (.name (py!"value")) (.const (.int i))) (choose writeText t .pass)) rest

theorem exec_block (i : Nat) (t : List (Str × Str)) (rest : Stmt) (s : Str) (more g : List (Str × Val)) (o : List Str) (f : Bool)
    (hm : more = [] ∨ ∃ x, more = [(subject, x)]) :
    exec E (block i t rest) ⟨(py!"value", .str v) :: (py!"record", rv) :: (py!"s", .buf s) :: more, g, o, f⟩ =
    match index v i with
    | .ok c => exec E rest
        ⟨(py!"value", .str v) :: (py!"record", rv) :: (py!"s", .buf (s ++ writeCase t c)) :: [(subject, .str c)], g, o, f⟩
    | .error e => (.error (.fault (.other e)),
        ⟨(py!"value", .str v) :: (py!"record", rv) :: (py!"s", .buf s) :: more, g, o, f⟩) := by
  rw [block, exec, exec_matchIndex]
  cases index v i with
  | error e => rw [bindR_error]
  | ok c =>
    have ha : St.assign ⟨(py!"value", .str v) :: (py!"record", rv) :: (py!"s", .buf s) :: more, g, o, f⟩ subject (.str c) =
        ⟨[(py!"value", .str v), (py!"record", rv), (py!"s", .buf s), (subject, .str c)], g, o, f⟩ := by
      rcases hm with rfl | ⟨x, rfl⟩ <;> simp [St.assign, put, subject]
    simp only [ha]
    rw [exec_choose E writeText _ c t _ (by simp [find, subject]), writeCase]
    cases t.lookup c with
    | none => simp [exec, bindR_ok]
    | some x =>
      simp [writeText, exec, eval, evals, bindR_ok, St.get, find, callMeth, applyMeth, St.mutate, put]

theorem src_017 : outcome (runBody E Src.field_017 [.str v, rv] st) = (ofPlain (field_017 v), st) := by
  have hF : Src.field_017.body = .seq (.assign (py!"s") (.prim .stringIO .nil)) (block 0 t017_0 (block 1 t017_1 (block 2 t017_2
    (block 3 t017_3 (.ret (.method (.method (.name (py!"s")) .getvalue .nil) .strip .nil)))))) := rfl
  simp only [runBody, hF, show Src.field_017.params = [py!"value", py!"record"] from rfl, bindParams, Option.map]
  rw [exec, exec, eval, evals, bindR_ok]
  simp only [callPrim, bindR_ok, St.assign, put, if_false, show ((py!"value" : Str) = py!"s") = False from by simp,
    show ((py!"record" : Str) = py!"s") = False from by simp]
  rw [exec_block E v rv 0 _ _ _ _ _ _ _ (Or.inl rfl), field_017]
  cases index v 0 with
  | error e => simp [leave_error, outcome_mk, ofPlain_error, Bind.bind, Except.bind]
  | ok c0 =>
  simp only [Bind.bind, Except.bind]
  rw [exec_block E v rv 1 _ _ _ _ _ _ _ (Or.inr ⟨_, rfl⟩)]
  cases index v 1 with
  | error e => simp [leave_error, outcome_mk, ofPlain_error]
  | ok c1 =>
  simp only []
  rw [exec_block E v rv 2 _ _ _ _ _ _ _ (Or.inr ⟨_, rfl⟩)]
  cases index v 2 with
  | error e => simp [leave_error, outcome_mk, ofPlain_error]
  | ok c2 =>
  simp only []
  rw [exec_block E v rv 3 _ _ _ _ _ _ _ (Or.inr ⟨_, rfl⟩)]
  cases index v 3 with
  | error e => simp [leave_error, outcome_mk, ofPlain_error]
  | ok c3 =>
  simp [exec, eval, evals, bindR_ok, St.get, find, callMeth, applyMeth, leave_ret, outcome_mk, ofPlain_ok, ofPyVal, ret]

theorem src_010 : outcome (runBody E Src.field_010 [.str v, rv] st) = (ofPlain (field_010 v), st) := by
  cases h : index v 0 <;>
  simp [runBody, Src.field_010, bindParams, exec, eval, evals, bindR_ok, bindR_error, St.get, find, subscript, indexF, h, lift, Lang.format,
    plainText, asText, sliced, texts, leave_ret, leave_error, outcome_mk, field_010, Bind.bind, Except.bind, ret, ofPlain_ok, ofPlain_error,
    ofPyVal]

/-- `record.ident == x` -/
def identIs (x : Str) : Expr := .cmp .eq (.attr (.name (py!"record")) (py!"ident")) (.const (.str x))

theorem src_007 (cls : Str) (attrs : List (Str × Val)) (ident : Str) (hid : find attrs (py!"ident") = some (.str ident)) :
    outcome (runBody E Src.field_007 [.str v, .obj cls attrs] st) = (ofPlain (field_007 v ident), st) := by
  have hF : Src.field_007.body = .seq (.assign (py!"d") (.const (.dict (.str unknown) [])))
    (.seq (.ite (identIs (py!"ER")) (fillOnly (py!"d") t007_1)
      (.ite (identIs (py!"ET")) (fillOnly (py!"d") t007_2)
      (.ite (.or (identIs (py!"PD")) (identIs (py!"HD"))) (fillOnly (py!"d") t007_3)
      (.ite (.or (identIs (py!"PE")) (identIs (py!"HE"))) (fillOnly (py!"d") t007_4)
      (.ite (.or (identIs (py!"PF")) (identIs (py!"HF"))) (fillOnly (py!"d") t007_5) .pass)))))
      (.ret (.cond (.cmp .ne (.sub (.name (py!"d")) (.name (py!"value"))) (.const (.str (py!"bad value"))))
        (.sub (.name (py!"d")) (.name (py!"value")))
        (.bin .add (.name (py!"value")) (.const (.str (py!" - BAD VALUE"))))))) := rfl
  simp only [runBody, hF, show Src.field_007.params = [py!"value", py!"record"] from rfl, bindParams, Option.map]
  rw [exec, exec, eval, bindR_ok, bindR_ok]
  simp only [St.assign, put]
  simp only [show ((py!"value" : Str) = py!"d") = False from by simp, show ((py!"record" : Str) = py!"d") = False from by simp, if_false]
  have hi : ∀ (x : Str), eval E (identIs x)
      ⟨[(py!"value", .str v), (py!"record", .obj cls attrs), (py!"d", .dict (.str unknown) [])], st.globals, st.out, st.frozen⟩ =
      (.ok (.bool (ident == x)),
      ⟨[(py!"value", .str v), (py!"record", .obj cls attrs), (py!"d", .dict (.str unknown) [])], st.globals, st.out, st.frozen⟩) := by
    intro x
    simp [identIs, eval, bindR_ok, St.get, find, getAttr, hid, compare, equal, answer]
  have hor : ∀ (x y : Str), eval E (.or (identIs x) (identIs y))
      ⟨[(py!"value", .str v), (py!"record", .obj cls attrs), (py!"d", .dict (.str unknown) [])], st.globals, st.out, st.frozen⟩ =
      (.ok (.bool (ident == x || ident == y)),
      ⟨[(py!"value", .str v), (py!"record", .obj cls attrs), (py!"d", .dict (.str unknown) [])], st.globals, st.out, st.frozen⟩) := by
    intro x y
    rw [eval, hi, bindR_ok]
    simp only [truth, hi]
    cases ident == x <;> rfl
  have hfill : ∀ t, exec E (fillOnly (py!"d") t)
      ⟨[(py!"value", .str v), (py!"record", .obj cls attrs), (py!"d", .dict (.str unknown) [])], st.globals, st.out, st.frozen⟩ =
      (.ok .next, ⟨[(py!"value", .str v), (py!"record", .obj cls attrs), (py!"d", .dict (.str unknown) (putAll [] t))],
        st.globals, st.out, st.frozen⟩) :=
    fun t => exec_fillOnly E v (.obj cls attrs) (py!"d") (.str unknown) st.globals st.out st.frozen (by simp) (by simp) t []
  have hstep : ∀ b t, exec E (.seq (.ite (identIs (py!"ER")) (fillOnly (py!"d") t007_1)
      (.ite (identIs (py!"ET")) (fillOnly (py!"d") t007_2)
      (.ite (.or (identIs (py!"PD")) (identIs (py!"HD"))) (fillOnly (py!"d") t007_3)
      (.ite (.or (identIs (py!"PE")) (identIs (py!"HE"))) (fillOnly (py!"d") t007_4)
      (.ite (.or (identIs (py!"PF")) (identIs (py!"HF"))) (fillOnly (py!"d") t007_5) .pass)))))
      b) ⟨[(py!"value", .str v), (py!"record", .obj cls attrs), (py!"d", .dict (.str unknown) [])], st.globals, st.out, st.frozen⟩ = t →
      exec E b ⟨[(py!"value", .str v), (py!"record", .obj cls attrs), (py!"d", .dict (.str unknown) (ofItems (routeTypes ident)))],
        st.globals, st.out, st.frozen⟩ = t := by
    intro b t ht
    rw [← ht]
    simp only [exec, hi, hor, bindR_ok, truth, hfill]
    rw [routeTypes]
    simp only [beq_iff_eq, Bool.or_eq_true]
    repeat' split
    all_goals first | rfl | simp [ofItems]
  rw [← hstep _ _ rfl]
  obtain ⟨l, h⟩ := exec_itemOr E v (.obj cls attrs) (py!"d") (py!"bad value") (py!" - BAD VALUE") (routeTypes ident) st.globals st.out
    st.frozen (by simp) (by simp)
  rw [h]
  rfl

end
end Arinc.Lang
