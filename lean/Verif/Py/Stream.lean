import Verif.Py.Utf8
/-!
# Reading a text file in pieces

CPython: `open(path)` gives an `io.TextIOWrapper`. It reads the file in pieces as the operating system delivers them
(at most 8192 bytes), passes each to an incremental UTF-8 decoder (Lib/codecs.py `BufferedIncrementalDecoder`,
Objects/stringlib/codecs.h `utf8_decode`), then to an `IncrementalNewlineDecoder` (Modules/_io/textio.c), and looks for
the ends of lines in what comes out (`_textiowrapper_readline`).
-/
namespace Py

/-- `codecs.utf_8_decode(data, 'strict', False)`: the text and the bytes of an incomplete character at the end, which
    are kept for the next call; `none`: `UnicodeDecodeError`. An incomplete character is refused as soon as the bytes
    that are there cannot begin one. -/
def utf8Feed : List Nat → Option (Str × List Nat)
  | [] => some ([], [])
  | b :: r =>
    if b < 0x80 then (utf8Feed r).map fun x => (b :: x.1, x.2)
    else if b < 0xC2 then none
    else if b < 0xE0 then
      match r with
      | [] => some ([], [b])
      | b1 :: r =>
        if isCont b1 then (utf8Feed r).map fun x => ((b * 64 + b1 - (0xC0 * 64 + 0x80)) :: x.1, x.2) else none
    else if b < 0xF0 then
      match r with
      | [] => some ([], [b])
      | [b1] =>
        if isCont b1 = false then none
        else if b = 0xE0 ∧ b1 < 0xA0 then none
        else if b = 0xED ∧ 0xA0 ≤ b1 then none
        else some ([], [b, b1])
      | b1 :: b2 :: r =>
        if isCont b1 = false then none
        else if b = 0xE0 ∧ b1 < 0xA0 then none
        else if b = 0xED ∧ 0xA0 ≤ b1 then none
        else if isCont b2 = false then none
        else (utf8Feed r).map fun x =>
          ((b * 4096 + b1 * 64 + b2 - (0xE0 * 4096 + 0x80 * 64 + 0x80)) :: x.1, x.2)
    else if b < 0xF5 then
      match r with
      | [] => some ([], [b])
      | [b1] =>
        if isCont b1 = false then none
        else if b = 0xF0 ∧ b1 < 0x90 then none
        else if b = 0xF4 ∧ 0x90 ≤ b1 then none
        else some ([], [b, b1])
      | [b1, b2] =>
        if isCont b1 = false then none
        else if b = 0xF0 ∧ b1 < 0x90 then none
        else if b = 0xF4 ∧ 0x90 ≤ b1 then none
        else if isCont b2 = false then none
        else some ([], [b, b1, b2])
      | b1 :: b2 :: b3 :: r =>
        if isCont b1 = false then none
        else if b = 0xF0 ∧ b1 < 0x90 then none
        else if b = 0xF4 ∧ 0x90 ≤ b1 then none
        else if isCont b2 = false ∨ isCont b3 = false then none
        else (utf8Feed r).map fun x =>
          ((b * 262144 + b1 * 4096 + b2 * 64 + b3 - (0xF0 * 262144 + 0x80 * 4096 + 0x80 * 64 + 0x80)) :: x.1, x.2)
    else none

/-- `IncrementalNewlineDecoder.decode` with `translate=True`: a CR at the end of a piece is held back (`cr`), since an
    LF may follow; the text, and whether a CR is held back now -/
def newlineFeed (cr : Bool) (s : Str) (final : Bool) : Str × Bool :=
  let s' := if cr && (!s.isEmpty || final) then 13 :: s else s
  let cr' := if cr && (!s.isEmpty || final) then false else cr
  if !final && endsWithChar s' 13 then (universalNewlines s'.dropLast, true)
  else (universalNewlines s', cr')

/-- The texts of the pieces, and what the last call, with no bytes and `final=True`, brings. `ok = false`: the file
    cannot be read further after these pieces (an `OSError`). Result: `UnicodeDecodeError` is `.error true`, `OSError`
    is `.error false`. -/
def textPieces (kept : List Nat) (cr : Bool) (ok : Bool) : List (List Nat) → Except Bool (List Str)
  | [] =>
    if ok then
      match utf8Decode kept with
      | none => .error true
      | some s => .ok [(newlineFeed cr s true).1]
    else .error false
  | c :: cs =>
    match utf8Feed (kept ++ c) with
    | none => .error true
    | some (s, k) => (textPieces k (newlineFeed cr s false).2 ok cs).map ((newlineFeed cr s false).1 :: ·)

/-- the lines that are complete with this piece, when `cur` has been read of the current line, and what is left -/
def takeLines (cur : Str) : Str → List Str × Str
  | [] => ([], cur)
  | c :: s =>
    if c = 10 then ((cur ++ [10]) :: (takeLines [] s).1, (takeLines [] s).2)
    else takeLines (cur ++ [c]) s

/-- `readlines()`: the lines of the pieces; what is left at the end is a line, if it is not empty -/
def linesOfPieces (cur : Str) : List Str → List Str
  | [] => if cur.isEmpty then [] else [cur]
  | p :: ps => (takeLines cur p).1 ++ linesOfPieces (takeLines cur p).2 ps

end Py
