import Verif.Model.Source
/-!
# Specification: the source of the decoders

What the theorems of `Props/Source.lean` compare: values of the model and of the language, and the state of the
interpreter before and after a call.
-/
namespace Spec
open Py Arinc Arinc.Lang

/-- the name of the function in decoder.py -/
def nameOf : DecFn → Str
  | .ident n => py!"field_" ++ zfill 3 (natStr n)
  | .f002 => py!"field_002"
  | .f003 => py!"field_003"
  | .f004 => py!"field_004"
  | .f007 => py!"field_007"
  | .f008 => py!"field_008"
  | .f009 => py!"field_009"
  | .f010 => py!"field_010"
  | .f012 => py!"field_012"
  | .f016 => py!"field_016"
  | .f017 => py!"field_017"
  | .f020 => py!"field_020"
  | .f021 => py!"field_021"
  | .f022 => py!"field_022"
  | .f023 => py!"field_023"
  | .f024 => py!"field_024"
  | .f025 => py!"field_025"
  | .f026 => py!"field_026"
  | .f027 => py!"field_027"
  | .f029 => py!"field_029"
  | .f030 => py!"field_030"
  | .f032 => py!"field_032"
  | .f034 => py!"field_034"
  | .f039 => py!"field_039"
  | .f042 => py!"field_042"
  | .f043 => py!"field_043"
  | .f045 => py!"field_045"
  | .f048 => py!"field_048"
  | .f049 => py!"field_049"
  | .f050 => py!"field_050"
  | .f053 => py!"field_053"
  | .f054 => py!"field_054"
  | .f062 => py!"field_062"
  | .f065 => py!"field_065"
  | .f072 => py!"field_072"
  | .f073 => py!"field_073"
  | .f082 => py!"field_082"
  | .f086 => py!"field_086"
  | .f091 => py!"field_091"
  | .f092 => py!"field_092"
  | .f101 => py!"field_101"
  | .f102 => py!"field_102"
  | .f103 => py!"field_103"
  | .f104 => py!"field_104"
  | .f106 => py!"field_106"
  | .f108 => py!"field_108"
  | .f112 => py!"field_112"
  | .f113 => py!"field_113"
  | .f117 => py!"field_117"
  | .f118 => py!"field_118"
  | .f123 => py!"field_123"
  | .f127 => py!"field_127"
  | .f135 => py!"field_135"
  | .f147 => py!"field_147"
  | .f161 => py!"field_161"
  | .f165 => py!"field_165"
  | .f177 => py!"field_177"
  | .f178 => py!"field_178"
  | .f179 => py!"field_179"
  | .f181 => py!"field_181"
  | .f182 => py!"field_182"
  | .f184 => py!"field_184"
  | .f196 => py!"field_196"
  | .f198 => py!"field_198"
  | .f199 => py!"field_199"
  | .f209 => py!"field_209"
  | .f240 => py!"field_240"
  | .f269 => py!"field_269"
  | .f270 => py!"field_270"

/-- a value of the model, in the language -/
def value : PyVal → Val
  | .str s => .str s
  | .float x => .float x
  | .none => .none

/-- a result of the model, in the language -/
def result : Except Fault PyVal → Except Err Val
  | .ok v => .ok (value v)
  | .error f => .error (.fault f)

/-- the entries of a `dict` of texts -/
def items (t : List (Str × Str)) : List (Str × Val) := t.map fun p => (p.1, .str p.2)

/-- the value of `LegTypeDesc`, a `defaultdict` with its entries -/
def legsVal (legs : Legs) : Val := .dict (.str (py!"<UNKNOWN>")) (items legs)

/-- the attributes of an object -/
def attrsOf : Val → List (Str × Val)
  | .obj _ attrs => attrs
  | _ => []

/-- the state after a call: `LegTypeDesc` has these entries, and these texts have been printed -/
def stAfter (st : St) (legs : Legs) (texts : List Str) : St :=
  { st with globals := put st.globals (py!"LegTypeDesc") (legsVal legs), out := st.out ++ texts }

end Spec
