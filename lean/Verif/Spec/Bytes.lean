import Verif.Spec.Utf8
import Verif.Spec.Total
import Verif.Model.Disk
/-!
# Specification: what becomes of a file of any bytes
-/
namespace Spec
open Py Arinc

/-- the bytes are no text in UTF-8 -/
def NotUtf8 (b : List ℕ) : Prop := ∀ s, ¬ Utf8 s b

/-- What `read_file` does with any bytes. -/
inductive BytesDo [PyUnicode] (output : Bool) (b : List ℕ) : Except Exc Unit → List Event → Prop
  /-- a text in UTF-8 is read line by line -/
  | text {s : Str} {ls : List Str} {res : Except Exc Unit} {out : List Event} (hb : Utf8 s b) (hs : Lines s ls)
      (h : FileDoes output ls res out) : BytesDo output b res out
  /-- otherwise nothing of it is shown -/
  | invalid (h : NotUtf8 b) : BytesDo output b (.error .valueError) []

/-- What `search` does with any bytes. -/
inductive BytesSearch [PyUnicode] (filters : Filters) (b : List ℕ) : Except Exc Unit → List Event → Prop
  | text {s : Str} {ls : List Str} {res : Except Exc Unit} {out : List Event} (hb : Utf8 s b) (hs : Lines s ls)
      (h : SearchRun filters 0 ls res out) : BytesSearch filters b res out
  | invalid (h : NotUtf8 b) : BytesSearch filters b (.error .valueError) []

/-- What `read_folder` does with any entries. -/
inductive DiskDoes [PyUnicode] : List Disk → Except Exc Unit → List Event → Prop
  | done : DiskDoes [] (.ok ()) []
  /-- the files one after the other, with output -/
  | file {b : List ℕ} {ds : List Disk} {res : Except Exc Unit} {out out' : List Event}
      (h : BytesDo true b (.ok ()) out) (t : DiskDoes ds res out') : DiskDoes (.bytes b :: ds) res (out ++ out')
  /-- up to the first that raises an exception -/
  | stop {b : List ℕ} {ds : List Disk} {e : Exc} {out : List Event} (h : BytesDo true b (.error e) out) :
      DiskDoes (.bytes b :: ds) (.error e) out
  /-- or cannot be opened -/
  | unopenable {ds : List Disk} : DiskDoes (.unopenable :: ds) (.error .osError) []

end Spec
