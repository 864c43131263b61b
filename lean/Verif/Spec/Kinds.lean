import Verif.Model.Types
import Verif.Spec.Shape
/-!
# Specification: blank fields, types of decoded values
-/
namespace Spec
open Py Arinc

/-- a value consisting of blanks -/
def Blanks (v : Str) : Prop := v ≠ [] ∧ ∀ c ∈ v, c = 32

/-- the fields that must not be blank: record type, route identifier, cycle date, IFR capability -/
def notBlank : List DecFn := [.f002, .f008, .f032, .f108]

/-- the sections with a field of the kind route identifier or IFR capability -/
def notBlankSections : List Str := [py!"ER", py!"ET", py!"EU", py!"TG", py!"PA", py!"HA"]

/-- the fields that can decode to a number -/
def numberFields : List DecFn := [.f062, .f135, .f269]

/-- the fields that can decode to no value -/
def noneFields : List DecFn := [.f009, .f065]

end Spec
