import Verif.Model.Table
import Verif.Model.Summary
/-!
# Model: standard output as text

`Event` keeps the data that a `print` is given. Here is the text it writes, with the versions that the project requires
(prettytable==3.9.0, termcolor==2.3.0, pyproject.toml:20-21). Not modelled: the text of filters that are neither `str` nor
`list` of `str`.
-/
namespace Arinc
open Py

/-- where the text is shown -/
structure Screen where
  /-- how wide a text is (package wcwidth, used by prettytable) -/
  width : Str → Int
  /-- `str.isprintable` of the characters above 127 -/
  printable : Nat → Bool
  /-- whether termcolor writes colours (`_can_do_colour`: a terminal, and environment variables) -/
  colour : Bool

/-- the message of the `ValueError` of `int(s)` (CPython, `PyLong_FromUnicodeObject`: `%.200R`) -/
def intMessage (printable : Nat → Bool) (s : Str) : Str :=
  py!"invalid literal for int() with base 10: " ++ (reprStr printable s).take 200

/-- `str(e)` in decoder.py:760 -/
def LegErr.text (printable : Nat → Bool) : LegErr → Str
  | .notInt s => intMessage printable s
  | .tooShort => py!"string index out of range"

/-- termcolor `colored(text, 'green' or 'red')` (`__init__.py:37`) -/
def colored (on green : Bool) (text : Str) : Str :=
  if on then [27] ++ (if green then py!"[32m" else py!"[31m") ++ text ++ [27] ++ py!"[0m" else text

/-- the text that is given to `print`: __init__.py:35, 37, decoder.py:495, 496, 760, 1191, record.py:142-144, 152-154, 172,
    185; `none`: not modelled -/
def Event.text (sc : Screen) : Event → Option Str
  | .line s => some s
  | .table rows => shownTable sc.width rows
  | .legTime v e => some (py!"Error: Invalid value passed to format_time. Value: \"" ++ v ++ py!"\". Error: " ++
      e.text sc.printable)
  | .summary n filters green => (summaryText sc.printable n filters).map (colored sc.colour green)

/-- what is written: `print` adds the end of the line -/
def stdoutText (sc : Screen) (out : List Event) : Option Str :=
  (out.mapM (Event.text sc)).map fun ts => ts.flatMap (· ++ [10])

end Arinc
