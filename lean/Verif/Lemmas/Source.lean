import Verif.Model.Source
/-!
# Lemmas: running the source of decoder.py
-/
namespace Arinc.Lang
open Py

/-- the value of the model as a value of the language -/
def ofPyVal : PyVal → Val
  | .str s => .str s
  | .float x => .float x
  | .none => .none

/-- the result of the model as a result of the language -/
def ofResult : Except Fault PyVal → Except Err Val
  | .ok v => .ok (ofPyVal v)
  | .error f => .error (.fault f)

/-- a `dict` of texts -/
def ofItems (t : List (Str × Str)) : List (Str × Val) := t.map fun p => (p.1, .str p.2)

theorem bindR_ite {α β : Type} {c : Prop} [Decidable c] (a b : Res α) (k : α → St → Res β) :
    bindR (if c then a else b) k = if c then bindR a k else bindR b k := by split <;> rfl

theorem bindR_ok {α β : Type} (a : α) (st : St) (k : α → St → Res β) : bindR (.ok a, st) k = k a st := rfl

theorem bindR_error {α β : Type} (e : Err) (st : St) (k : α → St → Res β) :
    bindR (.error e, st) k = (.error e, st) := rfl

theorem leave_ite {c : Prop} [Decidable c] (st : St) (a b : Res Flow) :
    leave st (if c then a else b) = if c then leave st a else leave st b := by split <;> rfl

theorem leave_ret (st st' : St) (v : Val) :
    leave st (.ok (.ret v), st') = (.ok v, { st' with locals := st.locals, frozen := st.frozen }, st'.locals) := rfl

theorem leave_next (st st' : St) :
    leave st (.ok .next, st') = (.ok .none, { st' with locals := st.locals, frozen := st.frozen }, st'.locals) := rfl

theorem leave_error (st st' : St) (e : Err) :
    leave st (.error e, st') = (.error e, { st' with locals := st.locals, frozen := st.frozen }, st'.locals) := rfl

theorem outcome_ite {α : Type} {c : Prop} [Decidable c] (a b : Except Err Val × St × α) :
    outcome (if c then a else b) = if c then outcome a else outcome b := by split <;> rfl

theorem outcome_mk {α : Type} (r : Except Err Val) (st : St) (x : α) : outcome (r, st, x) = (r, st) := rfl

theorem ofResult_ite {c : Prop} [Decidable c] (a b : Except Fault PyVal) (st : St) :
    (ofResult (if c then a else b), st) = if c then (ofResult a, st) else (ofResult b, st) := by split <;> rfl

theorem ofResult_ok (v : PyVal) : ofResult (.ok v) = .ok (ofPyVal v) := rfl

theorem ofResult_error (f : Fault) : ofResult (.error f) = .error (.fault f) := rfl

theorem ofResult_mapError (r : Except Exc PyVal) :
    ofResult (r.mapError .other) = match r with | .ok v => .ok (ofPyVal v) | .error e => .error (.fault (.other e)) := by
  cases r <;> rfl

/-- run a function, and write the result of the model in the same way -/
macro "run_source" "[" ls:Lean.Parser.Tactic.simpLemma,* "]" : tactic => `(tactic|
  (simp [runBody, bindParams, exec, eval, evals, bindR_ite, bindR_ok, bindR_error, leave_ite, leave_ret, leave_next,
    leave_error, outcome_ite, outcome_mk, St.get, St.assign, St.mutate, find, put, compare, equal, answer, truth, texts,
    binary, callMeth, callPrim, applyMeth, asText, plainText, Lang.format, getAttr, subscript, sliced, lift, subject,
    stuck, ofResult_ite, ofResult_ok, ofResult_error, ofPyVal, given, raised, ret, Bind.bind, Except.bind, $ls,*]
   try ((repeat' split) <;> simp_all <;> (try omega))))

/-- the result of a function that raises no `ValueError` -/
def ofPlain (r : Except Exc PyVal) : Except Err Val := ofResult (r.mapError .other)

theorem ofPlain_ite {c : Prop} [Decidable c] (a b : Except Exc PyVal) (st : St) :
    (ofPlain (if c then a else b), st) = if c then (ofPlain a, st) else (ofPlain b, st) := by split <;> rfl

theorem ofPlain_ok (v : PyVal) : ofPlain (.ok v) = .ok (ofPyVal v) := rfl

theorem ofPlain_error (e : Exc) : ofPlain (.error e) = .error (.fault (.other e)) := rfl

section
variable [PyUnicode]
variable (E : Env) (v : Str) (rv : Val) (st : St)

theorem src_002 : outcome (runBody E Src.field_002 [.str v, rv] st) = (ofResult (field_002F v), st) := by
  run_source [Src.field_002, field_002F]

theorem src_008 : outcome (runBody E Src.field_008 [.str v, rv] st) = (ofResult (field_008F v), st) := by
  run_source [Src.field_008, field_008F]

theorem src_020 : outcome (runBody E Src.field_020 [.str v, rv] st) = (ofResult (field_020F v), st) := by
  run_source [Src.field_020, field_020F]

theorem src_022 : outcome (runBody E Src.field_022 [.str v, rv] st) = (ofResult (field_022F v), st) := by
  run_source [Src.field_022, field_022F]

theorem src_072 : outcome (runBody E Src.field_072 [.str v, rv] st) = (ofResult (field_072F v), st) := by
  run_source [Src.field_072, field_072F]

theorem src_108 : outcome (runBody E Src.field_108 [.str v, rv] st) = (ofResult (field_108F v), st) := by
  run_source [Src.field_108, field_108F]

theorem src_182 : outcome (runBody E Src.field_182 [.str v, rv] st) = (ofResult (field_182F v), st) := by
  run_source [Src.field_182, field_182F]

theorem src_270 : outcome (runBody E Src.field_270 [.str v, rv] st) = (ofResult (field_270F v), st) := by
  run_source [Src.field_270, field_270F]

theorem src_023 : outcome (runBody E Src.field_023 [.str v, rv] st) = (ofResult (shortF (py!"Invalid Recommended NAVAID (RECD NAV):") v), st) := by
  run_source [Src.field_023, shortF]

theorem src_024 : outcome (runBody E Src.field_024 [.str v, rv] st) = (ofResult (shortF (py!"Invalid Theta:") v), st) := by
  run_source [Src.field_024, shortF]

theorem src_025 : outcome (runBody E Src.field_025 [.str v, rv] st) = (ofResult (shortF (py!"Invalid Rho:") v), st) := by
  run_source [Src.field_025, shortF]

theorem src_026 : outcome (runBody E Src.field_026 [.str v, rv] st) = (ofResult (field_026F E.sc.printable v), st) := by
  cases h : pyFloatF E.sc.printable (strip v) <;> run_source [Src.field_026, field_026F, h]

theorem src_027 : outcome (runBody E Src.field_027 [.str v, rv] st) = (ofResult (field_027F E.sc.printable v), st) := by
  cases h : pyFloatF E.sc.printable (strip v) <;> cases h' : pyFloatF E.sc.printable (sliceFrom (strip v) 1) <;>
  cases h'' : indexF (strip v) 0 <;> run_source [Src.field_027, field_027F, h, h', h'']

theorem src_032 : outcome (runBody E Src.field_032 [.str v, rv] st) = (ofResult (field_032F E.sc.printable v), st) := by
  cases h : pyIntF E.sc.printable (slice v 0 2) <;> run_source [Src.field_032, field_032F, h]

theorem src_039 : outcome (runBody E Src.field_039 [.str v, rv] st) = (ofResult (field_039F E.sc.printable v), st) := by
  cases h : pyIntF E.sc.printable (sliceFrom v 1) <;> cases h' : indexF v 0 <;>
    run_source [Src.field_039, field_039F, h, h']

theorem src_045 : outcome (runBody E Src.field_045 [.str v, rv] st) = (ofResult (freqF E.sc.printable v), st) := by
  cases h : pyFloatF E.sc.printable v <;> run_source [Src.field_045, freqF, h]

theorem src_103 : outcome (runBody E Src.field_103 [.str v, rv] st) = (ofResult (freqF E.sc.printable v), st) :=
  src_045 E v rv st

theorem src_062 : outcome (runBody E Src.field_062 [.str v, rv] st) = (ofResult (tenthF E.sc.printable v), st) := by
  cases h : pyFloatF E.sc.printable v <;> run_source [Src.field_062, tenthF, h]

theorem src_135 : outcome (runBody E Src.field_135 [.str v, rv] st) = (ofResult (tenthF E.sc.printable v), st) :=
  src_062 E v rv st

theorem src_082 : outcome (runBody E Src.field_082 [.str v, rv] st) = (ofResult (field_082F v), st) := by
  cases h : indexF v 0 <;> cases h' : indexF v 1 <;> run_source [Src.field_082, field_082F, h, h']

theorem src_178 : outcome (runBody E Src.field_178 [.str v, rv] st) = (ofResult (field_178F v), st) := by
  cases h : indexF v 0 with
  | error e => run_source [Src.field_178, field_178F, h]
  | ok c =>
    have ⟨x, hx⟩ : ∃ x, c = [x] := by
      unfold indexF index at h
      cases hv : v[0]? with
      | none => simp [hv] at h
      | some x => exact ⟨x, by simpa [hv] using h.symm⟩
    subst hx
    cases h' : upperIndex [x] <;> run_source [Src.field_178, field_178F, h, h', unsupported]

theorem src_269 : outcome (runBody E Src.field_269 [.str v, rv] st) = (ofResult (field_269F E.sc.printable v), st) := by
  cases h : pyFloatF E.sc.printable v <;> run_source [Src.field_269, field_269F, h]

theorem src_009 : outcome (runBody E Src.field_009 [.str v, rv] st) = (ofPlain (field_009 v), st) := by
  run_source [Src.field_009, field_009, ofPlain_ite, ofPlain_ok, ofPlain_error]

theorem src_012 : outcome (runBody E Src.field_012 [.str v, rv] st) = (ofPlain (field_012 v), st) := by
  run_source [Src.field_012, field_012, ofPlain_ite, ofPlain_ok, ofPlain_error]

theorem src_016 : outcome (runBody E Src.field_016 [.str v, rv] st) = (ofPlain (field_016 v), st) := by
  run_source [Src.field_016, field_016, ofPlain_ite, ofPlain_ok, ofPlain_error]

theorem src_029 : outcome (runBody E Src.field_029 [.str v, rv] st) = (ofPlain (field_029 v), st) := by
  run_source [Src.field_029, field_029, ofPlain_ite, ofPlain_ok, ofPlain_error, feet]

theorem src_043 : outcome (runBody E Src.field_043 [.str v, rv] st) = (ofPlain (field_043 v), st) := by
  run_source [Src.field_043, field_043, ofPlain_ite, ofPlain_ok, ofPlain_error]

theorem src_049 : outcome (runBody E Src.field_049 [.str v, rv] st) = (ofPlain (field_049 v), st) := by
  run_source [Src.field_049, field_049, ofPlain_ite, ofPlain_ok, ofPlain_error]

theorem src_054 : outcome (runBody E Src.field_054 [.str v, rv] st) = (ofPlain (field_054 v), st) := by
  run_source [Src.field_054, field_054, ofPlain_ite, ofPlain_ok, ofPlain_error]

theorem src_102 : outcome (runBody E Src.field_102 [.str v, rv] st) = (ofPlain (field_102 v), st) := by
  run_source [Src.field_102, field_102, ofPlain_ite, ofPlain_ok, ofPlain_error]

theorem src_112 : outcome (runBody E Src.field_112 [.str v, rv] st) = (ofPlain (field_112 v), st) := by
  run_source [Src.field_112, field_112, ofPlain_ite, ofPlain_ok, ofPlain_error]

theorem src_113 : outcome (runBody E Src.field_113 [.str v, rv] st) = (ofPlain (field_113 v), st) := by
  run_source [Src.field_113, field_113, ofPlain_ite, ofPlain_ok, ofPlain_error]

theorem src_117 : outcome (runBody E Src.field_117 [.str v, rv] st) = (ofPlain (field_117 v), st) := by
  run_source [Src.field_117, field_117, ofPlain_ite, ofPlain_ok, ofPlain_error]

theorem src_165 : outcome (runBody E Src.field_165 [.str v, rv] st) = (ofPlain (field_165 v), st) := by
  run_source [Src.field_165, field_165, ofPlain_ite, ofPlain_ok, ofPlain_error]

theorem src_177 : outcome (runBody E Src.field_177 [.str v, rv] st) = (ofPlain (field_177 v), st) := by
  run_source [Src.field_177, field_177, ofPlain_ite, ofPlain_ok, ofPlain_error, unsupported]

theorem src_179 : outcome (runBody E Src.field_179 [.str v, rv] st) = (ofPlain (field_179 v), st) := by
  run_source [Src.field_179, field_179, ofPlain_ite, ofPlain_ok, ofPlain_error, unsupported]

end
end Arinc.Lang
