import Verif.Py.Str
/-!
# Specification: UTF-8

The Unicode standard, table 3-6: how the bits of a character are spread over bytes.
-/
namespace Spec
open Py

/-- `Utf8Char c bs`: the character `c` is written as the bytes `bs` -/
inductive Utf8Char (c : Nat) : List Nat → Prop
  | one (h : c < 0x80) : Utf8Char c [c]
  | two (h : 0x80 ≤ c) (h' : c < 0x800) : Utf8Char c [0xC0 + c / 64, 0x80 + c % 64]
  | three (h : 0x800 ≤ c) (h' : c < 0x10000) (hs : ¬ (0xD800 ≤ c ∧ c ≤ 0xDFFF)) :
      Utf8Char c [0xE0 + c / 4096, 0x80 + c / 64 % 64, 0x80 + c % 64]
  | four (h : 0x10000 ≤ c) (h' : c ≤ 0x10FFFF) :
      Utf8Char c [0xF0 + c / 262144, 0x80 + c / 4096 % 64, 0x80 + c / 64 % 64, 0x80 + c % 64]

/-- `Utf8 s b`: the text `s` is written as the bytes `b` -/
inductive Utf8 : Str → List Nat → Prop
  | nil : Utf8 [] []
  | cons {c : Nat} {s : Str} {bs b : List Nat} (h : Utf8Char c bs) (t : Utf8 s b) : Utf8 (c :: s) (bs ++ b)

/-- the byte-order mark U+FEFF -/
def byteOrderMark : List Nat := [0xEF, 0xBB, 0xBF]

end Spec
