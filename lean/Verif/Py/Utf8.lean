import Verif.Py.Str
/-!
# Decoding of UTF-8

CPython: `utf8_decode` of Objects/stringlib/codecs.h, with the error handler `strict`: the text, or an error at the
first byte that does not fit.
-/
namespace Py

/-- `IS_CONTINUATION_BYTE` -/
def isCont (b : Nat) : Bool := 128 ≤ b && b < 192

/-- `none` stands for `UnicodeDecodeError` -/
def utf8Decode : List Nat → Option Str
  | [] => some []
  | b :: r =>
    if b < 0x80 then (utf8Decode r).map (b :: ·)
    else if b < 0xC2 then none                     -- continuation bytes, overlong forms
    else if b < 0xE0 then
      match r with
      | b1 :: r =>
        if isCont b1 then (utf8Decode r).map ((b * 64 + b1 - (0xC0 * 64 + 0x80)) :: ·) else none
      | [] => none
    else if b < 0xF0 then
      match r with
      | b1 :: b2 :: r =>
        if isCont b1 = false then none
        else if b = 0xE0 ∧ b1 < 0xA0 then none     -- overlong forms
        else if b = 0xED ∧ 0xA0 ≤ b1 then none     -- surrogates
        else if isCont b2 = false then none
        else (utf8Decode r).map ((b * 4096 + b1 * 64 + b2 - (0xE0 * 4096 + 0x80 * 64 + 0x80)) :: ·)
      | _ => none
    else if b < 0xF5 then
      match r with
      | b1 :: b2 :: b3 :: r =>
        if isCont b1 = false then none
        else if b = 0xF0 ∧ b1 < 0x90 then none     -- overlong forms
        else if b = 0xF4 ∧ 0x90 ≤ b1 then none     -- beyond U+10FFFF
        else if isCont b2 = false ∨ isCont b3 = false then none
        else (utf8Decode r).map
          ((b * 262144 + b1 * 4096 + b2 * 64 + b3 - (0xF0 * 262144 + 0x80 * 4096 + 0x80 * 64 + 0x80)) :: ·)
      | _ => none
    else none

end Py
