import Verif.Py.Utf8
/-!
# Encoding of UTF-8, and line ends in text files
-/
namespace Py

/-- CPython `_PyUnicode_EncodeUTF8` (Objects/stringlib/codecs.h, `utf8_encoder`) with the error handler `strict`; `none` stands
    for `UnicodeEncodeError` -/
def utf8Encode : Str → Option (List Nat)
  | [] => some []
  | c :: s =>
    if c < 0x80 then (utf8Encode s).map (c :: ·)
    else if c < 0x800 then (utf8Encode s).map (fun b => (0xC0 + c / 64) :: (0x80 + c % 64) :: b)
    else if 0xD800 ≤ c ∧ c ≤ 0xDFFF then none
    else if c < 0x10000 then
      (utf8Encode s).map (fun b => (0xE0 + c / 4096) :: (0x80 + c / 64 % 64) :: (0x80 + c % 64) :: b)
    else if c ≤ 0x10FFFF then
      (utf8Encode s).map (fun b =>
        (0xF0 + c / 262144) :: (0x80 + c / 4096 % 64) :: (0x80 + c / 64 % 64) :: (0x80 + c % 64) :: b)
    else none

/-- `TextIOWrapper.write` with the default `newline=None`: LF is written as `os.linesep`, which is CR LF on Windows -/
def writeNewlines (windows : Bool) (s : Str) : Str :=
  if windows then s.flatMap fun c => if c = 10 then [13, 10] else [c] else s

end Py
