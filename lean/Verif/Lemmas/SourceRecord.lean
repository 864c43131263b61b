import Verif.Lemmas.SourceRegistry
/-!
# Source of class `Record`: `__init__`, `primary`, `hasCont`, `validate`, `read`
-/
namespace Arinc.Lang
open Py

section
variable [PyUnicode] {E : Env}

/-! ## Rules -/

theorem seq_next {a b : Stmt} {st st' : St} {r : Res Flow} (h : exec E a st = (.ok .next, st')) (k : exec E b st' = r) :
    exec E (.seq a b) st = r := by
  rw [exec, h, bindR_ok]; exact k

theorem seq_ret {a b : Stmt} {st st' : St} {v : Val} (h : exec E a st = (.ok (.ret v), st')) :
    exec E (.seq a b) st = (.ok (.ret v), st') := by
  rw [exec, h, bindR_ok]

theorem seq_continue {a b : Stmt} {st st' : St} (h : exec E a st = (.ok .continue, st')) :
    exec E (.seq a b) st = (.ok .continue, st') := by
  rw [exec, h, bindR_ok]

theorem seq_error {a b : Stmt} {st st' : St} {e : Err} (h : exec E a st = (.error e, st')) :
    exec E (.seq a b) st = (.error e, st') := by
  rw [exec, h, bindR_error]

theorem ite_yes {c : Expr} {a b : Stmt} {st st' : St} {v : Val} {r : Res Flow} (h : eval E c st = (.ok v, st'))
    (ht : truth v = some true) (k : exec E a st' = r) : exec E (.ite c a b) st = r := by
  simp only [exec, h, bindR_ok, ht, if_true]; exact k

theorem ite_no {c : Expr} {a b : Stmt} {st st' : St} {v : Val} {r : Res Flow} (h : eval E c st = (.ok v, st'))
    (ht : truth v = some false) (k : exec E b st' = r) : exec E (.ite c a b) st = r := by
  simp only [exec, h, bindR_ok, ht, if_false, Bool.false_eq_true]; exact k

theorem ite_bad {c : Expr} {a b : Stmt} {st st' : St} {e : Err} (h : eval E c st = (.error e, st')) :
    exec E (.ite c a b) st = (.error e, st') := by
  simp only [exec, h, bindR_error]

theorem ret_ok {e : Expr} {st st' : St} {v : Val} (h : eval E e st = (.ok v, st')) :
    exec E (.ret e) st = (.ok (.ret v), st') := by
  simp only [exec, h, bindR_ok]

theorem expr_ok {e : Expr} {st st' : St} {v : Val} (h : eval E e st = (.ok v, st')) :
    exec E (.expr e) st = (.ok .next, st') := by
  simp only [exec, h, bindR_ok]

theorem expr_bad {e : Expr} {st st' : St} {x : Err} (h : eval E e st = (.error x, st')) :
    exec E (.expr e) st = (.error x, st') := by
  simp only [exec, h, bindR_error]

theorem assign_ok {e : Expr} {x : Str} {st st' : St} {v : Val} (h : eval E e st = (.ok v, st')) :
    exec E (.assign x e) st = (.ok .next, st'.assign x v) := by
  simp only [exec, h, bindR_ok]

theorem assign_bad {e : Expr} {x : Str} {st st' : St} {y : Err} (h : eval E e st = (.error y, st')) :
    exec E (.assign x e) st = (.error y, st') := by
  simp only [exec, h, bindR_error]

theorem is_bool {e : Expr} {st st' : St} {a b : Bool} (h : eval E e st = (.ok (.bool a), st')) :
    eval E (.cmp .is e (.const (.bool b))) st = (.ok (.bool (a == b)), st') := by
  simp only [eval, h, bindR_ok, compare, answer]

theorem is_bad {e : Expr} {st st' : St} {x : Err} {b : Val} (h : eval E e st = (.error x, st')) :
    eval E (.cmp .is e (.const b)) st = (.error x, st') := by
  simp only [eval, h, bindR_error]

theorem cmp_of {op : CmpOp} {a b : Expr} {st st1 st2 : St} {v w : Val} (ha : eval E a st = (.ok v, st1))
    (hb : eval E b st1 = (.ok w, st2)) : eval E (.cmp op a b) st = compare op v w st2 := by
  simp only [eval, ha, hb, bindR_ok]

theorem or_no {a b : Expr} {st st' : St} {v : Val} (ha : eval E a st = (.ok v, st')) (ht : truth v = some false) :
    eval E (.or a b) st = eval E b st' := by
  simp only [eval, ha, bindR_ok, ht, Bool.false_eq_true, if_false]

theorem or_yes {a b : Expr} {st st' : St} {v : Val} (ha : eval E a st = (.ok v, st')) (ht : truth v = some true) :
    eval E (.or a b) st = (.ok v, st') := by
  simp only [eval, ha, bindR_ok, ht, if_true]

/-- `print` of a text -/
theorem print_text {e : Expr} {st st' : St} {s : Str} (h : eval E e st = (.ok (.str s), st')) :
    exec E (.expr (.prim .print (.cons e .nil))) st = (.ok .next, { st' with out := st'.out ++ [s] }) := by
  simp only [exec, eval, evals, h, bindR_ok, callPrim, plainText]

/-! ## A `Record` -/

/-- the five attributes of a `Record` -/
def rec5 (i r c : Str) (f d : Val) : Val :=
  .obj (py!"Record") [(py!"ident", .str i), (py!"raw", .str r), (py!"continuation", .str c), (py!"fields", f), (py!"definition", d)]

/-- the state in a method -/
def inMethod (st : St) (self : Val) (rest : List (Str × Val)) : St := { st with locals := (py!"self", self) :: rest }

variable {st : St} {i r c : Str} {f d : Val} {rest : List (Str × Val)}

theorem get_self {self : Val} : (inMethod st self rest).get (py!"self") = some self := rfl

theorem eval_ident : eval E (.attr (.name (py!"self")) (py!"ident")) (inMethod st (rec5 i r c f d) rest) =
    (.ok (.str i), inMethod st (rec5 i r c f d) rest) := rfl

theorem eval_raw : eval E (.attr (.name (py!"self")) (py!"raw")) (inMethod st (rec5 i r c f d) rest) =
    (.ok (.str r), inMethod st (rec5 i r c f d) rest) := rfl

theorem eval_continuation : eval E (.attr (.name (py!"self")) (py!"continuation")) (inMethod st (rec5 i r c f d) rest) =
    (.ok (.str c), inMethod st (rec5 i r c f d) rest) := rfl

theorem eval_fields : eval E (.attr (.name (py!"self")) (py!"fields")) (inMethod st (rec5 i r c f d) rest) =
    (.ok f, inMethod st (rec5 i r c f d) rest) := rfl

theorem eval_definition : eval E (.attr (.name (py!"self")) (py!"definition")) (inMethod st (rec5 i r c f d) rest) =
    (.ok d, inMethod st (rec5 i r c f d) rest) := rfl

theorem set_ident {e : Expr} {v : Str} (hf : st.frozen = false)
    (h : eval E e (inMethod st (rec5 i r c f d) rest) = (.ok (.str v), inMethod st (rec5 i r c f d) rest)) :
    exec E (.setAttr (py!"self") (py!"ident") e) (inMethod st (rec5 i r c f d) rest) =
      (.ok .next, inMethod st (rec5 v r c f d) rest) := by
  rw [exec, h, bindR_ok]
  simp only [get_self, rec5, inMethod, hf]
  rfl

theorem set_raw {e : Expr} {v : Str} (hf : st.frozen = false)
    (h : eval E e (inMethod st (rec5 i r c f d) rest) = (.ok (.str v), inMethod st (rec5 i r c f d) rest)) :
    exec E (.setAttr (py!"self") (py!"raw") e) (inMethod st (rec5 i r c f d) rest) =
      (.ok .next, inMethod st (rec5 i v c f d) rest) := by
  rw [exec, h, bindR_ok]
  simp only [get_self, rec5, inMethod, hf]
  rfl

theorem set_continuation {e : Expr} {v : Str} (hf : st.frozen = false)
    (h : eval E e (inMethod st (rec5 i r c f d) rest) = (.ok (.str v), inMethod st (rec5 i r c f d) rest)) :
    exec E (.setAttr (py!"self") (py!"continuation") e) (inMethod st (rec5 i r c f d) rest) =
      (.ok .next, inMethod st (rec5 i r v f d) rest) := by
  rw [exec, h, bindR_ok]
  simp only [get_self, rec5, inMethod, hf]
  rfl

theorem set_fields {e : Expr} {v : Val} (hf : st.frozen = false)
    (h : eval E e (inMethod st (rec5 i r c f d) rest) = (.ok v, inMethod st (rec5 i r c f d) rest)) :
    exec E (.setAttr (py!"self") (py!"fields") e) (inMethod st (rec5 i r c f d) rest) =
      (.ok .next, inMethod st (rec5 i r c v d) rest) := by
  rw [exec, h, bindR_ok]
  simp only [get_self, rec5, inMethod, hf]
  rfl

theorem set_definition {e : Expr} {v : Val} (hf : st.frozen = false)
    (h : eval E e (inMethod st (rec5 i r c f d) rest) = (.ok v, inMethod st (rec5 i r c f d) rest)) :
    exec E (.setAttr (py!"self") (py!"definition") e) (inMethod st (rec5 i r c f d) rest) =
      (.ok .next, inMethod st (rec5 i r c f v) rest) := by
  rw [exec, h, bindR_ok]
  simp only [get_self, rec5, inMethod, hf]
  rfl

theorem set_bad {e : Expr} {a x : Str} {st st' : St} {y : Err} (h : eval E e st = (.error y, st')) :
    exec E (.setAttr x a e) st = (.error y, st') := by
  rw [exec, h, bindR_error]

/-! ## `primary`, `hasCont`, `validate` -/

theorem lookup_Record : Src.library.classes.lookup (py!"Record") = some Src.Record := by rfl

theorem method_primary : Src.Record.methods.lookup (py!"primary") = some Src.Record_primary := by rfl
theorem method_hasCont : Src.Record.methods.lookup (py!"hasCont") = some Src.Record_hasCont := by rfl
theorem method_validate : Src.Record.methods.lookup (py!"validate") = some Src.Record_validate := by rfl
theorem method_read : Src.Record.methods.lookup (py!"read") = some Src.Record_read := by rfl
theorem method_decode : Src.Record.methods.lookup (py!"decode") = some Src.Record_decode := by rfl
theorem method_json : Src.Record.methods.lookup (py!"json") = some Src.Record_json := by rfl

/-- what `primary` answers -/
def isPrimary (c : Str) : Val → Bool
  | .obj _ _ => c == py!"0" || c == py!"1"
  | _ => false

theorem call_primary (sc : Screen) (n : Nat) (st : St) (hd : d = .int (-1) ∨ ∃ cls attrs, d = .obj cls attrs) :
    (Src.library.env sc (n + 1)).callMethod (py!"Record") (py!"primary") (rec5 i r c f d) [] st =
      (.ok (.bool (isPrimary c d)), st, rec5 i r c f d) := by
  rw [env_callMethod, Prog.callMethod]
  simp only [lookup_Record, method_primary, Option.bind, runBody, Src.Record_primary, bindParams, Option.map]
  generalize hE : Src.library.env sc n = E
  have key : exec E Src.Record_primary.body (inMethod st (rec5 i r c f d) []) =
      (.ok (.ret (.bool (isPrimary c d))), inMethod st (rec5 i r c f d) []) := by
    rcases hd with rfl | ⟨cls, attrs, rfl⟩
    · refine seq_ret (ite_yes (v := .bool true) (st' := inMethod st (rec5 i r c f (.int (-1))) []) ?_ rfl (ret_ok ?_))
      · rw [eval, eval_definition, bindR_ok]; rfl
      · rfl
    · refine seq_next (ite_no (v := .bool false) (st' := inMethod st (rec5 i r c f (.obj cls attrs)) []) ?_ rfl rfl) ?_
      · rw [eval, eval_definition, bindR_ok]; rfl
      · refine ret_ok ?_
        have h0 : eval E (.cmp .eq (.attr (.name (py!"self")) (py!"continuation")) (.const (.str (py!"0"))))
            (inMethod st (rec5 i r c f (.obj cls attrs)) []) = (.ok (.bool (c == py!"0")), inMethod st (rec5 i r c f (.obj cls attrs)) []) := by
          rw [cmp_of eval_continuation rfl]; rfl
        have h1 : eval E (.cmp .eq (.attr (.name (py!"self")) (py!"continuation")) (.const (.str (py!"1"))))
            (inMethod st (rec5 i r c f (.obj cls attrs)) []) = (.ok (.bool (c == py!"1")), inMethod st (rec5 i r c f (.obj cls attrs)) []) := by
          rw [cmp_of eval_continuation rfl]; rfl
        unfold isPrimary
        cases hc : c == py!"0"
        · rw [hc] at h0
          rw [or_no h0 rfl, h1, Bool.false_or]
        · rw [hc] at h0
          rw [or_yes h0 rfl, Bool.true_or]
  have key' := key
  simp only [Src.Record_primary, inMethod] at key'
  rw [key']
  rfl

theorem call_validate (sc : Screen) (n : Nat) (st : St) (self : Val) (line : Str) :
    (Src.library.env sc (n + 1)).callMethod (py!"Record") (py!"validate") self [.str line] st =
      (.ok (.bool (validate line)), st, self) := by
  rw [env_callMethod, Prog.callMethod]
  simp only [lookup_Record, method_validate, Option.bind, runBody, Src.Record_validate, bindParams, Option.map]
  generalize hE : Src.library.env sc n = E
  have key : exec E Src.Record_validate.body (inMethod st self [(py!"line", .str line)]) =
      (.ok (.ret (.bool (validate line))), inMethod st self [(py!"line", .str (strip line))]) := by
    refine seq_next (st' := inMethod st self [(py!"line", .str (strip line))]) rfl ?_
    cases h1 : startsWithEither (strip line) 83 84
    · rw [show validate line = false from by unfold validate; simp only [h1, if_true]]
      refine seq_ret (ite_yes (v := .bool true) (st' := inMethod st self [(py!"line", .str (strip line))]) ?_ rfl rfl)
      refine is_bool (a := false) ?_
      rw [← h1]; rfl
    refine seq_next (ite_no (v := .bool false) (st' := inMethod st self [(py!"line", .str (strip line))]) ?_ rfl rfl) ?_
    · refine is_bool (a := true) ?_
      rw [← h1]; rfl
    have hl : eval E (.cmp .ne (.prim .len (.cons (.name (py!"line")) .nil)) (.const (.int 132)))
        (inMethod st self [(py!"line", .str (strip line))]) =
        (.ok (.bool (!(((strip line).length : Int) == 132))), inMethod st self [(py!"line", .str (strip line))]) := rfl
    by_cases h2 : (strip line).length = 132
    · have h2' : (((strip line).length : Int) == 132) = true := by rw [beq_iff_eq]; omega
      rw [h2'] at hl
      refine seq_next (ite_no hl rfl rfl) ?_
      cases h3 : isNumeric (lastN (strip line) 9)
      · rw [show validate line = false from by unfold validate; simp [h1, h2, h3]]
        refine seq_ret (ite_yes (v := .bool true) (st' := inMethod st self [(py!"line", .str (strip line))]) ?_ rfl rfl)
        refine is_bool (a := false) ?_
        rw [← h3]; rfl
      · rw [show validate line = true from by unfold validate; simp [h1, h2, h3]]
        refine seq_next (ite_no (v := .bool false) (st' := inMethod st self [(py!"line", .str (strip line))]) ?_ rfl rfl) rfl
        refine is_bool (a := true) ?_
        rw [← h3]; rfl
    · have h2' : (((strip line).length : Int) == 132) = false := by rw [beq_eq_false_iff_ne]; omega
      rw [h2'] at hl
      rw [show validate line = false from by unfold validate; simp [h1, h2]]
      exact seq_ret (ite_yes hl rfl rfl)
  simp only [Src.Record_validate, inMethod] at key
  rw [key]
  rfl

end
end Arinc.Lang
