import Verif.Model.Types
import Verif.Spec.Shape
import Verif.Spec.Number
/-!
# Specification: which raw values a field may have

`InDomain fn v`: `v` is an acceptable raw value of a field interpreted by field function `fn`
(ARINC-424 chapter 5 number). Fields not listed accept anything. Stated for values of the width
the field has in a record.
-/
namespace Spec
open Py Arinc
variable [PyUnicode]

/-- the text of a number for `float` -/
def IsFloat (v : Str) : Prop := ∃ l, FloatLit v l

/-- the text of a whole number for `int` -/
def IsInt (v : Str) : Prop := ∃ i, IntText v i

/-- acceptable raw values, field by field -/
def InDomain (fn : DecFn) (v : Str) : Prop :=
  match fn with
  | .f002 => v ∈ [py!"S", py!"T"]                                  -- record type
  | .f008 => isAlnum (strip v) = true                              -- route identifier
  | .f020 => v ∈ [py!"R", py!"L", py!"E", py!" "]                  -- turn direction
  | .f021 | .f022 => AllSpace v ∨ isAlpha (strip v) = true         -- path terminator, turn direction valid
  | .f023 | .f024 | .f025 =>                                       -- recommended navaid, theta, rho
    AllSpace v ∨ (isAlnum (strip v) = true ∧ (strip v).length ≤ 4)
  | .f026 =>                                                       -- course
    AllSpace v ∨ (isAlnum (strip v) = true ∧ (strip v).length ≤ 4 ∧
      ((strip v).getLast? = some 84 ∨ IsFloat (strip v)))
  | .f027 =>                                                       -- distance / time
    AllSpace v ∨ (if (strip v).head? = some 84 then IsFloat ((strip v).drop 1) else IsFloat (strip v))
  | .f032 => IsInt (v.take 2)                                      -- cycle date
  | .f034 => AllSpace v ∨ (isNumeric (strip v) = true ∧ IsFloat (strip v))  -- VOR/NDB frequency
  | .f039 => AllSpace v ∨ IsInt (v.drop 1)                         -- magnetic variation
  | .f045 | .f062 | .f103 | .f135 => isNumeric v = true → IsFloat v  -- frequencies, wind speed
  | .f072 => isNumeric v = true ∨ AllSpace v                       -- speed limit
  | .f082 => col v 0 = py!"R" ∨ col v 1 ∈ [py!"B", py!"H", py!"L", py!" "]  -- waypoint usage
  | .f108 => v ∈ [py!"Y", py!"N"]                                  -- IFR capability
  | .f178 =>                                                       -- time zone
    isAlpha (col v 0) = true → isNumeric (v.drop 1) = true → ∃ c, v.head? = some c ∧ 65 ≤ c ∧ c ≤ 90
  | .f182 => v ∈ [py!"G", py!"T", py!" "]                          -- guard / transmit
  | .f269 => AllSpace v ∨ IsFloat v                                -- threshold crossing height
  | .f270 => v ∈ [py!"I", py!"R", py!"V", py!"D", py!" "]          -- TCH value indicator
  | _ => True

/-- a VOR/NDB frequency that is neither blank nor numeric -/
def BadFrequency (fn : DecFn) (v : Str) : Prop :=
  fn = .f034 ∧ ¬ AllSpace v ∧ isNumeric (strip v) = false

/-- sections all of whose fields accept any ASCII text -/
def displayable : List Str :=
  [py!"AS", py!"EP", py!"HK", py!"HS", py!"PB", py!"PI", py!"PK", py!"PS", py!"R ", py!"RA", py!"TC",
   py!"UC", py!"UF", py!"UR"]

/-- all characters are ASCII -/
def Ascii (s : Str) : Prop := ∀ c ∈ s, c < 128

end Spec
