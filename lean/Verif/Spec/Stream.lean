import Verif.Model.Stream
import Verif.Spec.Bytes
/-!
# Specification: files as they are delivered
-/
namespace Spec
open Py Arinc

/-- What `read_file` does with a file that is delivered in some way. Only the bytes matter. -/
inductive SourceDoes [PyUnicode] (output : Bool) : Source → Except Exc Unit → List Event → Prop
  /-- the pieces together -/
  | whole {cs : List (List ℕ)} {res : Except Exc Unit} {out : List Event} (h : BytesDo output cs.flatten res out) :
      SourceDoes output (.pieces cs) res out
  /-- reading fails: nothing is shown of what was read before -/
  | broken {cs : List (List ℕ)} (h : ∃ t, ¬ NotUtf8 (cs.flatten ++ t)) :
      SourceDoes output (.broken cs) (.error .osError) []
  /-- or it has been found before that the file is no UTF-8, whatever follows -/
  | hopeless {cs : List (List ℕ)} (h : ∀ t, NotUtf8 (cs.flatten ++ t)) :
      SourceDoes output (.broken cs) (.error .valueError) []
  | unopenable : SourceDoes output .unopenable (.error .osError) []

/-- What `search` does with it. -/
inductive SourceSearch [PyUnicode] (filters : Filters) : Source → Except Exc Unit → List Event → Prop
  | whole {cs : List (List ℕ)} {res : Except Exc Unit} {out : List Event} (h : BytesSearch filters cs.flatten res out) :
      SourceSearch filters (.pieces cs) res out
  | broken {cs : List (List ℕ)} (h : ∃ t, ¬ NotUtf8 (cs.flatten ++ t)) :
      SourceSearch filters (.broken cs) (.error .osError) []
  | hopeless {cs : List (List ℕ)} (h : ∀ t, NotUtf8 (cs.flatten ++ t)) :
      SourceSearch filters (.broken cs) (.error .valueError) []
  | unopenable : SourceSearch filters .unopenable (.error .osError) []

/-- What `read_folder` does with such files. -/
inductive SourcesDo [PyUnicode] : List Source → Except Exc Unit → List Event → Prop
  | done : SourcesDo [] (.ok ()) []
  | file {s : Source} {ss : List Source} {res : Except Exc Unit} {out out' : List Event}
      (h : SourceDoes true s (.ok ()) out) (t : SourcesDo ss res out') : SourcesDo (s :: ss) res (out ++ out')
  | stop {s : Source} {ss : List Source} {e : Exc} {out : List Event} (h : SourceDoes true s (.error e) out) :
      SourcesDo (s :: ss) (.error e) out

end Spec
