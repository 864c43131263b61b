import Verif.Py.Str
/-!
# Specification: the characters of the texts in the library
-/
namespace Spec
open Py

/-- a printable character of ASCII, or the end of a line -/
abbrev Plain (c : Nat) : Prop := c = 10 ∨ (32 ≤ c ∧ c ≤ 126)

end Spec
