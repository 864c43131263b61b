import Verif.Lemmas.SourceTable
import Verif.Spec.Source
/-!
# Lemmas: running the source of decoder.py, all functions
-/
namespace Arinc.Lang
open Py

theorem put_same (d : List (Str × Val)) (k : Str) (v : Val) (h : find d k = some v) : put d k v = d := by
  induction d with
  | nil => simp [find] at h
  | cons p d ih =>
    obtain ⟨k', v'⟩ := p
    by_cases hk : k' = k
    · subst hk; simp [find] at h; subst h; simp [put]
    · simp [find, hk] at h; simp [put, hk, ih h]

section
variable [PyUnicode]
variable (E : Env) (v : Str) (rv : Val) (st : St)

theorem env_call (P : Prog) (sc : Screen) (n : Nat) : (P.env sc (n + 1)).call = P.callFn (P.env sc n) := rfl

theorem env_callMethod (P : Prog) (sc : Screen) (n : Nat) :
    (P.env sc (n + 1)).callMethod = P.callMethod (P.env sc n) := rfl

theorem env_sc (P : Prog) (sc : Screen) (n : Nat) : (P.env sc n).sc = sc := by cases n <;> rfl

omit [PyUnicode] in
theorem after_same (legs : Legs) (hl : find st.globals (py!"LegTypeDesc") = some (Spec.legsVal legs)) :
    Spec.stAfter st legs [] = st := by
  simp [Spec.stAfter, put_same _ _ _ hl]

theorem src_021 (legs : Legs) (hl : find st.globals (py!"LegTypeDesc") = some (Spec.legsVal legs)) :
    outcome (runBody E Src.field_021 [.str v, rv] st) =
      (ofResult (field_021F v legs), Spec.stAfter st (field_021 v legs).legs []) := by
  by_cases h1 : strip v = []
  · simp only [field_021, h1, List.length_nil, if_true]
    rw [after_same st legs hl]
    simp [runBody, Src.field_021, bindParams, exec, eval, evals, bindR_ok, St.get, find, callMeth, applyMeth, St.assign, put,
      callPrim, compare, equal, answer, truth, h1, leave_ret, outcome_mk, field_021F, given, ofResult_ok, ofPyVal]
  have h1' : (strip v).length ≠ 0 := by simpa using h1
  by_cases h2 : isAlpha (strip v) = true
  · cases h3 : legs.lookup (strip v) with
    | some x =>
      simp only [field_021, h1', if_false, h2, Bool.not_true, h3]
      rw [if_neg (by simp), after_same st legs hl]
      simp [runBody, Src.field_021, bindParams, exec, eval, evals, bindR_ok, St.get, find, callMeth, applyMeth, St.assign, put,
        callPrim, compare, equal, answer, truth, h1, h2, leave_ret, outcome_mk, field_021F, given, ofResult_ok, ofPyVal, hl,
        Spec.legsVal, subscript, Spec.items, ← ofItems.eq_def, lookup_ofItems, h3]
    | none =>
      simp only [field_021, h1', if_false, h2, Bool.not_true, h3]
      rw [if_neg (by simp)]
      simp [runBody, Src.field_021, bindParams, exec, eval, evals, bindR_ok, St.get, find, callMeth, applyMeth, St.assign, put,
        callPrim, compare, equal, answer, truth, h1, h2, leave_ret, outcome_mk, field_021F, given, ofResult_ok, ofPyVal, hl,
        Spec.legsVal, subscript, Spec.items, ← ofItems.eq_def, lookup_ofItems, h3, St.mutate, Spec.stAfter, ofItems_append, unknown]
  · simp only [Bool.not_eq_true] at h2
    simp only [field_021, h1', if_false, h2, Bool.not_false, if_true]
    rw [after_same st legs hl]
    simp [runBody, Src.field_021, bindParams, exec, eval, evals, bindR_ok, St.get, find, callMeth, applyMeth, St.assign, put,
      callPrim, compare, equal, answer, truth, h1, h2, bindR_error, leave_error, outcome_mk, field_021F, raised, ofResult_error, texts]

theorem src_034 (cls : Str) (attrs : List (Str × Val)) (ident raw : Str)
    (hid : find attrs (py!"ident") = some (.str ident)) (hraw : find attrs (py!"raw") = some (.str raw)) :
    ∃ ts, (field_034 v ident raw).2.mapM (Event.text E.sc) = some ts ∧
    outcome (runBody E Src.field_034 [.str v, .obj cls attrs] st) =
      (ofResult (field_034F E.sc.printable v), { st with out := st.out ++ ts }) := by
  by_cases h1 : strip v = []
  · refine ⟨[], by simp [field_034, h1], ?_⟩
    simp [runBody, Src.field_034, bindParams, exec, eval, evals, bindR_ok, St.get, find, callMeth, applyMeth, St.assign, put,
      callPrim, compare, equal, answer, truth, h1, leave_ret, outcome_mk, field_034F, given, ofResult_ok, ofPyVal]
  have h1' : 0 < (strip v).length := List.length_pos_iff.mpr h1
  have h1'' : (0 : Int) < ((strip v).length : Int) := by omega
  cases h2 : isNumeric (strip v) with
  | false =>
    refine ⟨_, by simp [field_034, h1', h2, Event.text]; rfl, ?_⟩
    simp [runBody, Src.field_034, bindParams, exec, eval, evals, bindR_ok, bindR_error, St.get, find, callMeth, applyMeth, St.assign, put,
      callPrim, compare, equal, answer, truth, h1, h1', h1'', h2, leave_error, outcome_mk, field_034F, ofResult_error, texts, getAttr, hid, hraw,
      Lang.format, plainText, asText]
  | true =>
    refine ⟨[], by simp [field_034, h1', h2], ?_⟩
    cases h3 : pyFloatF E.sc.printable (strip v) <;>
    simp [runBody, Src.field_034, bindParams, exec, eval, evals, bindR_ok, bindR_error, St.get, find, callMeth, applyMeth, St.assign, put,
      callPrim, compare, equal, answer, truth, h1, h1', h1'', h2, h3, lift, leave_error, leave_ret, outcome_mk, field_034F, ofResult_error, texts,
      Lang.format, plainText, asText, binary, Bind.bind, Except.bind, given, ofResult_ok, ofPyVal]

theorem src_065 :
    ∃ ts, (field_065 v).2.mapM (Event.text E.sc) = some ts ∧
    outcome (runBody E Src.field_065 [.str v, rv] st) = (ofPlain (field_065 v).1, { st with out := st.out ++ ts }) := by
  by_cases h1 : strip v = []
  · refine ⟨[], by simp [field_065, h1], ?_⟩
    simp [runBody, Src.field_065, bindParams, exec, eval, evals, bindR_ok, St.get, find, callMeth, applyMeth,
      compare, equal, answer, truth, h1, leave_ret, outcome_mk, field_065, ofPlain_ok, ofPyVal]
  cases h2 : index v 0 with
  | error e =>
    have he : e = .indexError := by
      revert h2; unfold index; split <;> simp_all
    refine ⟨_, by simp [field_065, h1, legTime, h2, Event.text]; rfl, ?_⟩
    simp [runBody, Src.field_065, bindParams, exec, eval, evals, bindR_ok, bindR_error, St.get, find, callMeth, applyMeth,
      compare, equal, answer, truth, h1, leave_ret, outcome_mk, field_065, ofPlain_ok, ofPyVal, legTime, h2, subscript, indexF, lift, he,
      Fault.exc, St.assign, put, callPrim, Lang.format, plainText, faultText, asText, texts, LegErr.text, ret]
  | ok c0 =>
    cases h3 : pyInt c0 with
    | error e =>
      refine ⟨_, by simp [field_065, h1, legTime, h2, h3, Event.text]; rfl, ?_⟩
      simp [runBody, Src.field_065, bindParams, exec, eval, evals, bindR_ok, bindR_error, St.get, find, callMeth, applyMeth,
        compare, equal, answer, truth, h1, leave_ret, outcome_mk, field_065, ofPlain_ok, ofPyVal, legTime, h2, h3, subscript, indexF, pyIntF, lift,
        Fault.exc, St.assign, put, callPrim, Lang.format, plainText, faultText, asText, texts, LegErr.text, ret, Fault.text, intMessage]
    | ok m =>
      cases h4 : index v 1 with
      | error e =>
        have he : e = .indexError := by
          revert h4; unfold index; split <;> simp_all
        refine ⟨_, by simp [field_065, h1, legTime, h2, h3, h4, Event.text]; rfl, ?_⟩
        simp [runBody, Src.field_065, bindParams, exec, eval, evals, bindR_ok, bindR_error, St.get, find, callMeth, applyMeth,
          compare, equal, answer, truth, h1, leave_ret, outcome_mk, field_065, ofPlain_ok, ofPyVal, legTime, h2, h3, h4, subscript, indexF, pyIntF, lift, he,
          Fault.exc, St.assign, put, callPrim, Lang.format, plainText, faultText, asText, texts, LegErr.text, ret]
      | ok c1 =>
        cases h5 : pyInt c1 with
        | error e =>
          refine ⟨_, by simp [field_065, h1, legTime, h2, h3, h4, h5, Event.text]; rfl, ?_⟩
          simp [runBody, Src.field_065, bindParams, exec, eval, evals, bindR_ok, bindR_error, St.get, find, callMeth, applyMeth,
            compare, equal, answer, truth, h1, leave_ret, outcome_mk, field_065, ofPlain_ok, ofPyVal, legTime, h2, h3, h4, h5, subscript, indexF, pyIntF, lift,
            Fault.exc, St.assign, put, callPrim, Lang.format, plainText, faultText, asText, texts, LegErr.text, ret, Fault.text, intMessage]
        | ok t =>
          refine ⟨[], by simp [field_065, h1, legTime, h2, h3, h4, h5], ?_⟩
          simp [runBody, Src.field_065, bindParams, exec, eval, evals, bindR_ok, bindR_error, St.get, find, callMeth, applyMeth,
            compare, equal, answer, truth, h1, leave_ret, outcome_mk, field_065, ofPlain_ok, ofPyVal, legTime, h2, h3, h4, h5, subscript, indexF, pyIntF, lift,
            callPrim, Lang.format, plainText, asText, texts, ret, binary]

theorem src_118 :
    ∃ ts, (field_118 v).2.mapM (Event.text E.sc) = some ts ∧
    outcome (runBody E Src.field_118 [.str v, rv] st) = (ofPlain (field_118 v).1, { st with out := st.out ++ ts }) := by
  cases h0 : index v 0 with
  | error e =>
    refine ⟨[], by simp [field_118, h0], ?_⟩
    simp [runBody, Src.field_118, bindParams, exec, eval, evals, bindR_ok, bindR_error, St.get, find, subscript, indexF, lift, h0, St.assign, put,
      leave_error, outcome_mk, field_118, ofPlain_error]
  | ok c =>
    cases h1 : boundaryVia c with
    | none =>
      have hc : c ≠ py!"C" ∧ c ≠ py!"G" ∧ c ≠ py!"H" ∧ c ≠ py!"L" ∧ c ≠ py!"R" := by
        refine ⟨?_, ?_, ?_, ?_, ?_⟩ <;> (rintro rfl; simp [boundaryVia] at h1)
      refine ⟨_, by simp [field_118, h0, h1, Event.text]; rfl, ?_⟩
      simp [runBody, Src.field_118, bindParams, exec, eval, evals, bindR_ok, bindR_error, St.get, find, subscript, indexF, lift, h0, St.assign, put,
        subject, equal, hc, callPrim, Lang.format, plainText, asText, texts, leave_ret, outcome_mk, field_118, h1, ret, ofPlain_ok, ofPyVal]
    | some s =>
      refine ⟨[], by simp only [field_118, h0, h1]; cases index v 1 <;> simp <;> split <;> simp, ?_⟩
      have hc : (c = py!"C" ∧ s = py!"Circle") ∨ (c = py!"G" ∧ s = py!"Great Circle") ∨ (c = py!"H" ∧ s = py!"Rhumb Line") ∨
          (c = py!"L" ∧ s = py!"Counter Clockwise ARC") ∨ (c = py!"R" ∧ s = py!"Clockwise ARC") := by
        simp only [boundaryVia] at h1
        repeat' split at h1
        all_goals simp_all
      cases h2 : index v 1 with
      | error e =>
        rcases hc with ⟨rfl, rfl⟩ | ⟨rfl, rfl⟩ | ⟨rfl, rfl⟩ | ⟨rfl, rfl⟩ | ⟨rfl, rfl⟩ <;>
        simp [runBody, Src.field_118, bindParams, exec, eval, evals, bindR_ok, bindR_error, St.get, find, subscript, indexF, lift, h0, h2, St.assign, put,
          subject, equal, binary, field_118, h1, ofPlain_error, leave_error, outcome_mk]
      | ok c1 =>
        by_cases hE : c1 = py!"E" <;>
        rcases hc with ⟨rfl, rfl⟩ | ⟨rfl, rfl⟩ | ⟨rfl, rfl⟩ | ⟨rfl, rfl⟩ | ⟨rfl, rfl⟩ <;>
        simp [runBody, Src.field_118, bindParams, exec, eval, evals, bindR_ok, bindR_error, St.get, find, subscript, indexF, lift, h0, h2, St.assign, put,
          subject, equal, binary, field_118, h1, hE, compare, answer, truth, ofPlain_ok, ofPyVal, ret, leave_ret, outcome_mk]

theorem src_same : outcome (runBody E Src.same [.str v, rv] st) = (.ok (.str v), st) := by
  simp [runBody, Src.same, bindParams, exec, eval, bindR_ok, St.get, find, leave_ret, outcome_mk]

/-- is it `return value`? -/
def isSame (F : Func) : Bool :=
  match F with
  | ⟨[a, b], [], .ret (.name x)⟩ => a == py!"value" && b == py!"record" && x == py!"value"
  | _ => false

omit [PyUnicode] in
theorem of_isSame (F : Func) (h : isSame F = true) : F = Src.same := by
  unfold isSame at h
  split at h
  · simp only [Bool.and_eq_true, beq_iff_eq] at h
    obtain ⟨⟨rfl, rfl⟩, rfl⟩ := h
    rfl
  · cases h

omit [PyUnicode] in
theorem lookup_ident (n : Nat) (h : n ∈ identityFns) : Src.decoderFuncs.lookup (Spec.nameOf (.ident n)) = some Src.same := by
  have : identityFns.all (fun n => match Src.decoderFuncs.lookup (Spec.nameOf (.ident n)) with
      | some F => isSame F | none => false) = true := by decide +kernel
  have := List.all_eq_true.mp this n h
  split at this
  · rename_i F hF; rw [hF, of_isSame F this]
  · cases this

omit [PyUnicode] in
theorem ofResult_eq (r : Except Fault PyVal) : ofResult r = Spec.result r := by
  rcases r with f | v
  · rfl
  · cases v <;> rfl

/-- a function that neither prints nor changes the table -/
theorem quiet_case (fn : DecFn) (F : Func) (rec : RecInfo) (legs : Legs) (r : Except Fault PyVal)
    (hl : find st.globals (py!"LegTypeDesc") = some (Spec.legsVal legs))
    (ho : (runDec fn v rec legs).out = []) (hg : (runDec fn v rec legs).legs = legs)
    (hr : runFault E.sc.printable fn v rec legs = r)
    (hF : Src.decoderFuncs.lookup (Spec.nameOf fn) = some F)
    (h : outcome (runBody E F [.str v, rv] st) = (ofResult r, st)) :
    ∃ F ts, Src.decoderFuncs.lookup (Spec.nameOf fn) = some F ∧ (runDec fn v rec legs).out.mapM (Event.text E.sc) = some ts ∧
      outcome (runBody E F [.str v, rv] st) =
        (Spec.result (runFault E.sc.printable fn v rec legs), Spec.stAfter st (runDec fn v rec legs).legs ts) := by
  refine ⟨F, [], hF, by rw [ho]; rfl, ?_⟩
  rw [h, hr, hg, after_same st legs hl, ofResult_eq]

set_option maxRecDepth 4000 in
/-- the source of every decoder computes what the model computes -/
theorem src_all (fn : DecFn) (cls : Str) (attrs : List (Str × Val)) (rec : RecInfo) (legs : Legs)
    (hfn : ∀ n, fn = .ident n → n ∈ identityFns)
    (hid : find attrs (py!"ident") = some (.str rec.ident)) (hraw : find attrs (py!"raw") = some (.str rec.raw))
    (hl : find st.globals (py!"LegTypeDesc") = some (Spec.legsVal legs)) :
    ∃ F ts, Src.decoderFuncs.lookup (Spec.nameOf fn) = some F ∧ (runDec fn v rec legs).out.mapM (Event.text E.sc) = some ts ∧
      outcome (runBody E F [.str v, .obj cls attrs] st) =
        (Spec.result (runFault E.sc.printable fn v rec legs), Spec.stAfter st (runDec fn v rec legs).legs ts) := by
  cases fn with
  | ident n =>
    have hn := hfn n rfl
    have hc : identityFns.contains n = true := by simpa using hn
    exact quiet_case E v (.obj cls attrs) st (.ident n) Src.same rec legs (.ok (.str v)) hl (by simp only [runDec, hc, quiet, if_true]) (by simp only [runDec, hc, quiet, if_true])
      (by simp only [runFault, runDec, hc, quiet, ret, Except.mapError, if_true]) (lookup_ident n hn) (src_same E v _ st)
  | f002 => exact quiet_case E v _ st .f002 Src.field_002 rec legs _ hl rfl rfl rfl rfl (src_002 E v _ st)
  | f003 => exact quiet_case E v _ st .f003 Src.field_003 rec legs _ hl rfl rfl rfl rfl (src_003 E v _ st)
  | f004 => exact quiet_case E v _ st .f004 Src.field_004 rec legs _ hl rfl rfl rfl rfl (src_004 E v _ st)
  | f007 => exact quiet_case E v _ st .f007 Src.field_007 rec legs _ hl rfl rfl rfl rfl (src_007 E v st cls attrs rec.ident hid)
  | f008 => exact quiet_case E v _ st .f008 Src.field_008 rec legs _ hl rfl rfl rfl rfl (src_008 E v _ st)
  | f009 => exact quiet_case E v _ st .f009 Src.field_009 rec legs _ hl rfl rfl rfl rfl (src_009 E v _ st)
  | f010 => exact quiet_case E v _ st .f010 Src.field_010 rec legs _ hl rfl rfl rfl rfl (src_010 E v _ st)
  | f012 => exact quiet_case E v _ st .f012 Src.field_012 rec legs _ hl rfl rfl rfl rfl (src_012 E v _ st)
  | f016 => exact quiet_case E v _ st .f016 Src.field_016 rec legs _ hl rfl rfl rfl rfl (src_016 E v _ st)
  | f017 => exact quiet_case E v _ st .f017 Src.field_017 rec legs _ hl rfl rfl rfl rfl (src_017 E v _ st)
  | f020 => exact quiet_case E v _ st .f020 Src.field_020 rec legs _ hl rfl rfl rfl rfl (src_020 E v _ st)
  | f021 =>
    refine ⟨Src.field_021, [], rfl, ?_, ?_⟩
    · show (field_021 v legs).out.mapM _ = _
      simp only [field_021]
      repeat' split
      all_goals rfl
    · rw [src_021 E v _ st legs hl, ofResult_eq]; rfl
  | f022 => exact quiet_case E v _ st .f022 Src.field_022 rec legs _ hl rfl rfl rfl rfl (src_022 E v _ st)
  | f023 => exact quiet_case E v _ st .f023 Src.field_023 rec legs _ hl rfl rfl rfl rfl (src_023 E v _ st)
  | f024 => exact quiet_case E v _ st .f024 Src.field_024 rec legs _ hl rfl rfl rfl rfl (src_024 E v _ st)
  | f025 => exact quiet_case E v _ st .f025 Src.field_025 rec legs _ hl rfl rfl rfl rfl (src_025 E v _ st)
  | f026 => exact quiet_case E v _ st .f026 Src.field_026 rec legs _ hl rfl rfl rfl rfl (src_026 E v _ st)
  | f027 => exact quiet_case E v _ st .f027 Src.field_027 rec legs _ hl rfl rfl rfl rfl (src_027 E v _ st)
  | f029 => exact quiet_case E v _ st .f029 Src.field_029 rec legs _ hl rfl rfl rfl rfl (src_029 E v _ st)
  | f030 => exact quiet_case E v _ st .f030 Src.field_030 rec legs _ hl rfl rfl rfl rfl (src_029 E v _ st)
  | f032 => exact quiet_case E v _ st .f032 Src.field_032 rec legs _ hl rfl rfl rfl rfl (src_032 E v _ st)
  | f034 =>
    obtain ⟨ts, ht, h⟩ := src_034 E v st cls attrs rec.ident rec.raw hid hraw
    refine ⟨Src.field_034, ts, rfl, ht, ?_⟩
    rw [h, ofResult_eq]
    show _ = (_, Spec.stAfter st legs ts)
    rw [Spec.stAfter, put_same _ _ _ hl]; rfl
  | f039 => exact quiet_case E v _ st .f039 Src.field_039 rec legs _ hl rfl rfl rfl rfl (src_039 E v _ st)
  | f042 => exact quiet_case E v _ st .f042 Src.field_042 rec legs _ hl rfl rfl rfl rfl (src_042 E v _ st)
  | f043 => exact quiet_case E v _ st .f043 Src.field_043 rec legs _ hl rfl rfl rfl rfl (src_043 E v _ st)
  | f045 => exact quiet_case E v _ st .f045 Src.field_045 rec legs _ hl rfl rfl rfl rfl (src_045 E v _ st)
  | f048 => exact quiet_case E v _ st .f048 Src.field_048 rec legs _ hl rfl rfl rfl rfl (src_029 E v _ st)
  | f049 => exact quiet_case E v _ st .f049 Src.field_049 rec legs _ hl rfl rfl rfl rfl (src_049 E v _ st)
  | f050 => exact quiet_case E v _ st .f050 Src.field_050 rec legs _ hl rfl rfl rfl rfl (src_029 E v _ st)
  | f053 => exact quiet_case E v _ st .f053 Src.field_053 rec legs _ hl rfl rfl rfl rfl (src_029 E v _ st)
  | f054 => exact quiet_case E v _ st .f054 Src.field_054 rec legs _ hl rfl rfl rfl rfl (src_054 E v _ st)
  | f062 => exact quiet_case E v _ st .f062 Src.field_062 rec legs _ hl rfl rfl rfl rfl (src_062 E v _ st)
  | f065 =>
    obtain ⟨ts, ht, h⟩ := src_065 E v (.obj cls attrs) st
    refine ⟨Src.field_065, ts, rfl, ht, ?_⟩
    rw [h, ofPlain, ofResult_eq]
    show _ = (_, Spec.stAfter st legs ts)
    rw [Spec.stAfter, put_same _ _ _ hl]; rfl
  | f072 => exact quiet_case E v _ st .f072 Src.field_072 rec legs _ hl rfl rfl rfl rfl (src_072 E v _ st)
  | f073 => exact quiet_case E v _ st .f073 Src.field_073 rec legs _ hl rfl rfl rfl rfl (src_029 E v _ st)
  | f082 => exact quiet_case E v _ st .f082 Src.field_082 rec legs _ hl rfl rfl rfl rfl (src_082 E v _ st)
  | f086 => exact quiet_case E v _ st .f086 Src.field_086 rec legs _ hl rfl rfl rfl rfl (src_029 E v _ st)
  | f091 => exact quiet_case E v _ st .f091 Src.field_091 rec legs _ hl rfl rfl rfl rfl (src_091 E v _ st)
  | f092 => exact quiet_case E v _ st .f092 Src.field_092 rec legs _ hl rfl rfl rfl rfl (src_029 E v _ st)
  | f101 => exact quiet_case E v _ st .f101 Src.field_101 rec legs _ hl rfl rfl rfl rfl (src_101 E v _ st)
  | f102 => exact quiet_case E v _ st .f102 Src.field_102 rec legs _ hl rfl rfl rfl rfl (src_102 E v _ st)
  | f103 => exact quiet_case E v _ st .f103 Src.field_103 rec legs _ hl rfl rfl rfl rfl (src_103 E v _ st)
  | f104 => exact quiet_case E v _ st .f104 Src.field_104 rec legs _ hl rfl rfl rfl rfl (src_104 E v _ st)
  | f106 => exact quiet_case E v _ st .f106 Src.field_106 rec legs _ hl rfl rfl rfl rfl (src_106 E v _ st)
  | f108 => exact quiet_case E v _ st .f108 Src.field_108 rec legs _ hl rfl rfl rfl rfl (src_108 E v _ st)
  | f112 => exact quiet_case E v _ st .f112 Src.field_112 rec legs _ hl rfl rfl rfl rfl (src_112 E v _ st)
  | f113 => exact quiet_case E v _ st .f113 Src.field_113 rec legs _ hl rfl rfl rfl rfl (src_113 E v _ st)
  | f117 => exact quiet_case E v _ st .f117 Src.field_117 rec legs _ hl rfl rfl rfl rfl (src_117 E v _ st)
  | f118 =>
    obtain ⟨ts, ht, h⟩ := src_118 E v (.obj cls attrs) st
    refine ⟨Src.field_118, ts, rfl, ht, ?_⟩
    rw [h, ofPlain, ofResult_eq]
    show _ = (_, Spec.stAfter st legs ts)
    rw [Spec.stAfter, put_same _ _ _ hl]; rfl
  | f123 => exact quiet_case E v _ st .f123 Src.field_123 rec legs _ hl rfl rfl rfl rfl (src_029 E v _ st)
  | f127 => exact quiet_case E v _ st .f127 Src.field_127 rec legs _ hl rfl rfl rfl rfl (src_029 E v _ st)
  | f135 => exact quiet_case E v _ st .f135 Src.field_135 rec legs _ hl rfl rfl rfl rfl (src_135 E v _ st)
  | f147 => exact quiet_case E v _ st .f147 Src.field_147 rec legs _ hl rfl rfl rfl rfl (src_029 E v _ st)
  | f161 => exact quiet_case E v _ st .f161 Src.field_161 rec legs _ hl rfl rfl rfl rfl (src_029 E v _ st)
  | f165 => exact quiet_case E v _ st .f165 Src.field_165 rec legs _ hl rfl rfl rfl rfl (src_165 E v _ st)
  | f177 => exact quiet_case E v _ st .f177 Src.field_177 rec legs _ hl rfl rfl rfl rfl (src_177 E v _ st)
  | f178 => exact quiet_case E v _ st .f178 Src.field_178 rec legs _ hl rfl rfl rfl rfl (src_178 E v _ st)
  | f179 => exact quiet_case E v _ st .f179 Src.field_179 rec legs _ hl rfl rfl rfl rfl (src_179 E v _ st)
  | f181 => exact quiet_case E v _ st .f181 Src.field_181 rec legs _ hl rfl rfl rfl rfl (src_181 E v _ st)
  | f182 => exact quiet_case E v _ st .f182 Src.field_182 rec legs _ hl rfl rfl rfl rfl (src_182 E v _ st)
  | f184 => exact quiet_case E v _ st .f184 Src.field_184 rec legs _ hl rfl rfl rfl rfl (src_029 E v _ st)
  | f196 => exact quiet_case E v _ st .f196 Src.field_196 rec legs _ hl rfl rfl rfl rfl (src_196 E v _ st)
  | f198 => exact quiet_case E v _ st .f198 Src.field_198 rec legs _ hl rfl rfl rfl rfl (src_198 E v _ st)
  | f199 => exact quiet_case E v _ st .f199 Src.field_199 rec legs _ hl rfl rfl rfl rfl (src_199 E v _ st)
  | f209 => exact quiet_case E v _ st .f209 Src.field_209 rec legs _ hl rfl rfl rfl rfl (src_029 E v _ st)
  | f240 => exact quiet_case E v _ st .f240 Src.field_240 rec legs _ hl rfl rfl rfl rfl (src_029 E v _ st)
  | f269 => exact quiet_case E v _ st .f269 Src.field_269 rec legs _ hl rfl rfl rfl rfl (src_269 E v _ st)
  | f270 => exact quiet_case E v _ st .f270 Src.field_270 rec legs _ hl rfl rfl rfl rfl (src_270 E v _ st)

end
end Arinc.Lang
