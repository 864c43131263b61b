import Verif.Lemmas.SourceRecord
/-!
# Source of the statements of module record.py
-/
namespace Arinc.Lang
open Py

/-- the name is that of a class without `__init__` -/
def plainClass (f : Str) : Bool :=
  (Src.library.funcs.lookup f).isNone && match Src.library.classes.lookup f with
    | some C => (C.methods.lookup (py!"__init__")).isNone
    | none => false

section
variable [PyUnicode] {sc : Screen} {n : Nat}

theorem call_plain {f : Str} (hf : plainClass f = true) (st : St) :
    (Src.library.env sc (n + 1)).call f [] st = (.ok (.obj f []), st) := by
  simp only [plainClass, Bool.and_eq_true, Option.isNone_iff_eq_none] at hf
  rw [env_call, Prog.callFn]
  simp only [hf.1]
  split
  · next C hC => rw [hC] at hf; simp only [Option.isNone_iff_eq_none] at hf; simp [hf.2]
  · next hC => rw [hC] at hf; simp at hf

omit [PyUnicode] in
theorem lookup_Waypoint : Src.library.funcs.lookup (py!"Waypoint") = none := by decide +kernel
omit [PyUnicode] in
theorem lookup_TAA : Src.library.funcs.lookup (py!"TAA") = none := by decide +kernel
omit [PyUnicode] in
theorem lookup_MSA : Src.library.funcs.lookup (py!"MSA") = none := by decide +kernel

theorem call_Waypoint (b : Bool) (st : St) : (Src.library.env sc (n + 1)).call (py!"Waypoint") [.bool b] st =
    (.ok (.obj (py!"Waypoint") [(py!"enroute", .bool b)]), st) := by
  rw [env_call, Prog.callFn]
  simp only [lookup_Waypoint]
  rfl

theorem call_TAA (b : Bool) (st : St) : (Src.library.env sc (n + 1)).call (py!"TAA") [.bool b] st =
    (.ok (.obj (py!"TAA") [(py!"heliport", .bool b), (py!"id_name", .str (if b then py!"Heliport Identifier" else py!"Airport Identifier"))]), st) := by
  rw [env_call, Prog.callFn]
  simp only [lookup_TAA]
  cases b <;> rfl

theorem call_TAA0 (st : St) : (Src.library.env sc (n + 1)).call (py!"TAA") [] st =
    (.ok (.obj (py!"TAA") [(py!"heliport", .bool false), (py!"id_name", .str (py!"Airport Identifier"))]), st) := by
  rw [env_call, Prog.callFn]
  simp only [lookup_TAA]
  rfl

theorem call_MSA (b : Bool) (st : St) : (Src.library.env sc (n + 1)).call (py!"MSA") [.bool b] st =
    (.ok (.obj (py!"MSA") [(py!"heliport", .bool b), (py!"id_name", .str (if b then py!"Heliport Identifier" else py!"Airport Identifier"))]), st) := by
  rw [env_call, Prog.callFn]
  simp only [lookup_MSA]
  cases b <;> rfl

/-- the state while the module is imported -/
def importing (l : List (Str × Val)) : St := ⟨[(py!"records", .dict (.bool false) l)], [], [], false⟩

omit [PyUnicode] in
theorem put_new {l : List (Str × Val)} {k : Str} (h : find l k = none) (v : Val) : put l k v = l ++ [(k, v)] := by
  induction l with
  | nil => rfl
  | cons p l ih =>
    obtain ⟨k', v'⟩ := p
    by_cases hk : k' = k
    · simp [find, hk] at h
    · simp only [find, hk, if_false] at h
      simp [put, hk, ih h]

/-- `records[k] = C(...)` -/
theorem set_record {E : Env} {k : Str} {e : Expr} {v : Val} {l : List (Str × Val)} {b : Stmt} {r : Res Flow}
    (he : eval E e (importing l) = (.ok v, importing l)) (hk : find l k = none)
    (h : exec E b (importing (l ++ [(k, v)])) = r) :
    exec E (.seq (.setItem (py!"records") (.const (.str k)) e) b) (importing l) = r := by
  rw [exec, exec, he, bindR_ok, eval, bindR_ok]
  simp only [show (importing l).get (py!"records") = some (.dict (.bool false) l) from rfl, bindR_ok]
  rw [put_new hk]
  exact h

theorem set_last {E : Env} {k : Str} {e : Expr} {v : Val} {l : List (Str × Val)}
    (he : eval E e (importing l) = (.ok v, importing l)) (hk : find l k = none) :
    exec E (.setItem (py!"records") (.const (.str k)) e) (importing l) = (.ok .next, importing (l ++ [(k, v)])) := by
  rw [exec, he, bindR_ok, eval, bindR_ok]
  simp only [show (importing l).get (py!"records") = some (.dict (.bool false) l) from rfl]
  rw [put_new hk]
  rfl

theorem eval_new0 {E : Env} {f : Str} {st : St} {v : Val} (h : E.call f [] st = (.ok v, st)) :
    eval E (.call f .nil) st = (.ok v, st) := by
  rw [eval, evals, bindR_ok]; exact h

theorem eval_new1 {E : Env} {f : Str} {st : St} {v w : Val} (h : E.call f [w] st = (.ok v, st)) :
    eval E (.call f (.cons (.const w) .nil)) st = (.ok v, st) := by
  rw [eval, evals, eval, bindR_ok, evals, bindR_ok, bindR_ok]; exact h

omit [PyUnicode] in
theorem recordsVal_eq : Spec.recordsVal = .dict (.bool false) (registry.map fun p => (p.1, Spec.defVal p.1 p.2)) := rfl

theorem import_record : exec (Src.library.env sc (n + 1)) Src.recordModule ⟨[], [], [], false⟩ =
    (.ok .next, ⟨[(py!"records", Spec.recordsVal)], [], [], false⟩) := by
  refine seq_next (a := .assign (py!"records") (.const (.dict (.bool false) []))) (st' := importing []) rfl ?_
  repeat' refine set_record (by first
    | exact eval_new0 (call_plain (by decide +kernel) _)
    | exact eval_new1 (call_Waypoint _ _)
    | exact eval_new1 (call_TAA _ _)
    | exact eval_new0 (call_TAA0 _)
    | exact eval_new1 (call_MSA _ _)) (by decide +kernel) ?_
  rw [set_last (eval_new0 (call_plain (by decide +kernel) _)) (by decide +kernel)]
  simp only [List.nil_append, List.cons_append]
  rw [recordsVal_eq, importing]
  simp only [registry, List.map_cons, List.map_nil, Spec.defVal]
  rfl

end
end Arinc.Lang
