import Verif.Spec.Shape
import Verif.Spec.Utf8
import Verif.Model.Encoding
/-!
# Specification: text in a code page
-/
namespace Spec
open Py Arinc

/-- `InPage t s b`: the text `s` is written as the bytes `b` in the code page `t` -/
inductive InPage (t : CodePage) : Str → List Nat → Prop
  | nil : InPage t [] []
  | cons {c x : Nat} {s : Str} {b : List Nat} (h : t x = some c) (r : InPage t s b) : InPage t (c :: s) (x :: b)

/-- The code page extends ASCII: the first 128 bytes are ASCII, and no other byte stands for a character of ASCII. -/
structure ExtendsAscii (t : CodePage) : Prop where
  ascii : ∀ b, b < 128 → t b = some b
  others : ∀ b c, 128 ≤ b → t b = some c → 128 ≤ c

/-- The bytes with which characters begin in UTF-8 stand for no digits or other numbers and for no whitespace (so
    it is in the code pages cp1250 to cp1258 of Windows and in ISO 8859-1). -/
def LeadsAreLetters [PyUnicode] (t : CodePage) : Prop :=
  ∀ b c, 0xC2 ≤ b → b ≤ 0xF4 → t b = some c → PyUnicode.numeric c = false ∧ isSpace c = false

end Spec
