import Verif.Py.Encode
import Verif.Model.Encoding
import Verif.Model.Table
import Verif.Model.Json
/-!
# Model: writing a record to a file

README.md, "Writing a Record to a File": the texts that `Record.decode` (record.py:166-173) and `Record.json`
(record.py:175-187) return are written to a file opened with `open(path, "w")`. Here is what is then on the disk, and what
`open(path).read()` makes of it.
-/
namespace Arinc
open Py

/-- `with open(path, "w") as f: f.write(text)` where the default encoding is UTF-8: the bytes of the file, or
    `UnicodeEncodeError` -/
def save (windows : Bool) (text : Str) : Option (List Nat) := utf8Encode (writeNewlines windows text)

/-- `open(path).read()` where the default encoding is UTF-8; `none`: `UnicodeDecodeError` -/
def load (b : List Nat) : Option Str := (utf8Decode b).map universalNewlines

/-- `open(path).read()` where the default encoding is a code page -/
def loadIn (t : CodePage) (b : List Nat) : Option Str := (charmapDecode t b).map universalNewlines

end Arinc
