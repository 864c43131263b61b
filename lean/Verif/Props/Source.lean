import Verif.Lemmas.SourceState
import Verif.Py.Cpython311
import Verif.Py.Printable
/-!
# C119: the source of decoder.py

`Model/Source.lean` holds the syntax trees that Python's parser gives for decoder.py, and `Model/Lang.lean` says what
such trees do. `Src.decoder.env sc n` runs them, with calls of a depth of up to `n`.
-/
namespace Arinc.Lang
open Py

section
variable [PyUnicode]

/-- C119, the decoders: called by its name with a text and a record, a function of decoder.py returns or raises what the
model says, prints the texts and changes `LegTypeDesc` as the model says, and changes nothing else. -/
theorem C119_decoders (sc : Screen) (n : Nat) (fn : DecFn) (hfn : ∀ k, fn = .ident k → k ∈ identityFns)
    (value : Str) (cls : Str) (attrs : List (Str × Val)) (rec : RecInfo) (legs : Legs) (st : St)
    (hident : find attrs (py!"ident") = some (.str rec.ident)) (hraw : find attrs (py!"raw") = some (.str rec.raw))
    (hlegs : find st.globals (py!"LegTypeDesc") = some (Spec.legsVal legs)) :
    ∃ texts, (runDec fn value rec legs).out.mapM (Event.text sc) = some texts ∧
      (Src.decoder.env sc (n + 1)).call (Spec.nameOf fn) [.str value, .obj cls attrs] st =
        (Spec.result (runFault sc.printable fn value rec legs), Spec.stAfter st (runDec fn value rec legs).legs texts) := by
  obtain ⟨F, ts, hF, ht, h⟩ := src_all (Src.decoder.env sc n) value st fn cls attrs rec legs hfn hident hraw hlegs
  have hsc : (Src.decoder.env sc n).sc = sc := by cases n <;> rfl
  rw [hsc] at ht h
  refine ⟨ts, ht, ?_⟩
  rw [env_call, Prog.callFn]
  simp only [show Src.decoder.funcs = Src.decoderFuncs from rfl, hF]
  exact h

/-- C119: what a decoder raises is an exception of the model: the code has no misspelt name, no argument of a wrong type
and no missing return value that a text could reach. -/
theorem C119_never_stuck (sc : Screen) (n : Nat) (fn : DecFn) (hfn : ∀ k, fn = .ident k → k ∈ identityFns)
    (value : Str) (cls : Str) (attrs : List (Str × Val)) (rec : RecInfo) (legs : Legs) (st : St)
    (hident : find attrs (py!"ident") = some (.str rec.ident)) (hraw : find attrs (py!"raw") = some (.str rec.raw))
    (hlegs : find st.globals (py!"LegTypeDesc") = some (Spec.legsVal legs)) :
    ((Src.decoder.env sc (n + 1)).call (Spec.nameOf fn) [.str value, .obj cls attrs] st).1 ≠ .error .stuck := by
  obtain ⟨ts, -, h⟩ := C119_decoders sc n fn hfn value cls attrs rec legs st hident hraw hlegs
  rw [h]
  cases runFault sc.printable fn value rec legs <;> simp [Spec.result]

/-- C119, a field: `Field(name, value, fn)` makes an object whose `decode(record)` is a call of the function. -/
theorem C119_field (sc : Screen) (n : Nat) (fn : DecFn) (hfn : ∀ k, fn = .ident k → k ∈ identityFns)
    (name value : Str) (cls : Str) (attrs : List (Str × Val)) (rec : RecInfo) (legs : Legs) (st st' : St)
    (hident : find attrs (py!"ident") = some (.str rec.ident)) (hraw : find attrs (py!"raw") = some (.str rec.raw))
    (hlegs : find st.globals (py!"LegTypeDesc") = some (Spec.legsVal legs)) :
    ∃ field, (Src.decoder.env sc (n + 1)).call (py!"Field") [.str name, .str value, .fn (Spec.nameOf fn)] st' =
        (.ok field, st') ∧
      ∃ texts, (runDec fn value rec legs).out.mapM (Event.text sc) = some texts ∧
        (Src.decoder.env sc (n + 2)).callMethod (py!"Field") (py!"decode") field [.obj cls attrs] st =
          (Spec.result (runFault sc.printable fn value rec legs), Spec.stAfter st (runDec fn value rec legs).legs texts, field) := by
  refine ⟨.obj (py!"Field") [(py!"name", .str name), (py!"value", .str value), (py!"decode_fn", .fn (Spec.nameOf fn))], ?_, ?_⟩
  · rw [env_call]
    have h1 : Src.decoder.funcs.lookup (py!"Field") = none := by decide +kernel
    have h2 : Src.decoder.classes.lookup (py!"Field") = some Src.Field := by rfl
    have h3 : Src.Field.methods.lookup (py!"__init__") = some Src.Field_init := by rfl
    simp [Prog.callFn, h1, h2, h3, runBody, Src.Field_init, bindParams, exec, eval, bindR_ok, St.get, find, St.mutate, put,
      leave_next, selfOf]
  · let st1 : St := { st with locals := [(py!"self", .obj (py!"Field") [(py!"name", .str name), (py!"value", .str value),
      (py!"decode_fn", .fn (Spec.nameOf fn))]), (py!"record", .obj cls attrs)] }
    obtain ⟨ts, ht, h⟩ := C119_decoders sc n fn hfn value cls attrs rec legs st1 hident hraw hlegs
    refine ⟨ts, ht, ?_⟩
    rw [env_callMethod]
    have h2 : (Src.decoder.classes.lookup (py!"Field")).bind (fun C => C.methods.lookup (py!"decode")) = some Src.Field_decode := by rfl
    rw [Prog.callMethod]
    simp only [h2, runBody, Src.Field_decode, bindParams, Option.map]
    simp only [exec, eval, evals, bindR_ok, St.get, find, if_true, getAttr,
      show ((py!"self" : Str) = py!"record") = False from by simp, show ((py!"name" : Str) = py!"value") = False from by simp,
      show ((py!"name" : Str) = py!"decode_fn") = False from by simp,
      show ((py!"value" : Str) = py!"decode_fn") = False from by simp, if_false]
    rw [h]
    cases hr : runFault sc.printable fn value rec legs <;>
      simp [Spec.result, Spec.stAfter, bindR_ok, bindR_error, leave_ret, leave_error, selfOf, st1, find]

/-- C119, the statements of the module: `LegTypeDesc` is the table of the model. -/
theorem C119_module (E : Env) :
    exec E Src.decoderModule ⟨[], [], [], false⟩ =
      (.ok .next, ⟨[(py!"LegTypeDesc", Spec.legsVal legTypeDesc)], [], [], false⟩) := by
  rfl

end

section
attribute [local instance] Py.Tables.cpython311

/-- a terminal that shows all characters -/
def someScreen : Screen := ⟨fun s => s.length, Py.Tables.printable311, false⟩

/-- a record of a section, as the decoders see it -/
def someRecord : Val := .obj (py!"Record") [(py!"ident", .str (py!"PF")), (py!"raw", .str (py!"SUSAP"))]

/-- the module when it has been imported -/
def someState : St := ⟨[], [(py!"LegTypeDesc", Spec.legsVal legTypeDesc)], [], false⟩

-- the assumptions of `C119_decoders`: a decoder of the library, a record, the table
example : 6 ∈ identityFns ∧ find (Spec.attrsOf someRecord) (py!"ident") = some (.str (py!"PF")) ∧
    find someState.globals (py!"LegTypeDesc") = some (Spec.legsVal legTypeDesc) := ⟨by decide, rfl, rfl⟩

-- the source of `field_032`, run
example : (match (Src.decoder.env someScreen 1).call (py!"field_032") [.str (py!"2304"), someRecord] someState with
    | (.ok (.str s), st) => s == py!"2023, Release 04" && st.out.isEmpty
    | _ => false) = true := by decide +kernel

-- `field_007` looks at the section of the record
example : (match (Src.decoder.env someScreen 1).call (py!"field_007") [.str (py!"I"), someRecord] someState with
    | (.ok (.str s), _) => s == py!"Instrument Landing System (ILS) Approach"
    | _ => false) = true := by decide +kernel

-- `field_034` prints two lines and exits
example : (match (Src.decoder.env someScreen 1).call (py!"field_034") [.str (py!"1O215"), someRecord] someState with
    | (.error (.fault .exit), st) => st.out == [py!"Unsupported VOR/NDB Frequency: \"1O215\"", py!"from record type \"PF\": \"SUSAP\""]
    | _ => false) = true := by decide +kernel

-- `field_021` adds an unknown type to the table
example : (match (Src.decoder.env someScreen 1).call (py!"field_021") [.str (py!"ZZ"), someRecord] someState with
    | (.ok (.str s), st) => s == py!"<UNKNOWN>" && (match find st.globals (py!"LegTypeDesc") with
      | some (.dict _ items) => items.length == legTypeDesc.length + 1
      | _ => false)
    | _ => false) = true := by decide +kernel

-- `field_002` raises `ValueError('Invalid Record Type', 'X')`
example : (match (Src.decoder.env someScreen 1).call (py!"field_002") [.str (py!"X"), someRecord] someState with
    | (.error (.fault (.value args)), _) => args == [py!"Invalid Record Type", py!"X"]
    | _ => false) = true := by decide +kernel

-- a function that does not exist is outside of the model
example : (match (Src.decoder.env someScreen 1).call (py!"field_999") [.str (py!"X"), someRecord] someState with
    | (.error .stuck, _) => true
    | _ => false) = true := by decide +kernel

end
end Arinc.Lang
