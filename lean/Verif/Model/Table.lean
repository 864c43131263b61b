import Verif.Model.Cells
/-!
# The text of the table

`Record.decode` (record.py:166-174) fills a `PrettyTable` with three columns, aligned to the left, and prints and returns
its text. This models `PrettyTable.get_string` of the version that the project requires (prettytable==3.9.0,
pyproject.toml:20), with the settings `decode` leaves at their defaults: a frame, a line under the header, a blank on
both sides of a cell. Not modelled: the two places where a text wider than its column would be cut or wrapped; no text is
(`C106_no_wrap`).
-/
namespace Arinc
open Py

/-- `text.split("\n")`: the first line and the others -/
def splitLF : Str → Str × List Str
  | [] => ([], [])
  | c :: s => if c = 10 then ([], (splitLF s).1 :: (splitLF s).2) else (c :: (splitLF s).1, (splitLF s).2)

/-- the lines of a text -/
def linesOf (s : Str) : List Str := (splitLF s).1 :: (splitLF s).2

/-- `"\n".join` -/
def joinLF : List Str → Str
  | [] => []
  | [l] => l
  | l :: ls => l ++ 10 :: joinLF ls

/-- the width of a cell (`_get_size`): that of its widest line. How wide a text is, `width`, is from the package wcwidth. -/
def cellWidth (width : Str → Int) (s : Str) : Int := ((splitLF s).2.map width).foldl max (width (splitLF s).1)

/-- `_compute_widths`: the columns are as wide as their widest cell or name -/
def columnWidths (width : Str → Int) (head : List Str) (rows : List (List Str)) : List Int :=
  rows.foldl (fun ws r => List.zipWith (fun w c => max w (cellWidth width c)) ws r) (head.map (cellWidth width))

/-- `_justify`, to the left: the text and blanks up to the width of the column. (`n * " "` is empty if `n` is negative.) -/
def justify (width : Str → Int) (w : Int) (s : Str) : Str := s ++ List.replicate (w - width s).toNat 32

/-- `_stringify_hrule` -/
def tableRule (ws : List Int) : Str := py!"+" ++ ws.flatMap fun w => List.replicate (w + 2).toNat 45 ++ py!"+"

/-- a line of the table -/
def tableLine (width : Str → Int) (ws : List Int) (cells : List Str) : Str :=
  py!"|" ++ (List.zip ws cells).flatMap fun p => py!" " ++ justify width p.1 p.2 ++ py!" |"

/-- `_stringify_row`: a row has as many lines as its highest cell; the others are continued with empty lines -/
def tableRow (width : Str → Int) (ws : List Int) (cells : List Str) : List Str :=
  let height := (cells.map fun c => (linesOf c).length).foldl max 0
  (List.range height).map fun y => tableLine width ws (cells.map fun c => ((linesOf c)[y]?).getD [])

/-- `get_string`: a line, the header (`_stringify_header`), a line, the rows, a line -/
def tableString (width : Str → Int) (head : List Str) (rows : List (List Str)) : Str :=
  let ws := columnWidths width head rows
  joinLF (tableRule ws :: tableLine width ws head :: tableRule ws ::
    (rows.flatMap (tableRow width ws) ++ [tableRule ws]))

/-- record.py:167 -/
def tableHead : List Str := [py!"Field", py!"Value", py!"Decoded"]

/-- the text that `Record.decode` prints and returns (record.py:166-174) -/
def shownTable (width : Str → Int) (rows : List Row) : Option Str :=
  (rows.mapM Row.cells).map (tableString width tableHead)

end Arinc
