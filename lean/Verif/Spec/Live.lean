import Verif.Model.Live
/-!
# Specification: folders that change while they are read
-/
namespace Spec
open Py Arinc

/-- What can be relied on of `os.scandir` (POSIX `readdir`), called at the moment `start`: an entry was there at some
    moment up to its use; a name that is there all the time is given exactly once. Of a name that appears or disappears
    meanwhile nothing is known. -/
structure Scanned (d : ChangingFolder) (start : Nat) (entries : List (Str × Nat)) : Prop where
  later : ∀ e ∈ entries, start ≤ e.2
  existed : ∀ e ∈ entries, ∃ t, start ≤ t ∧ t ≤ e.2 ∧ d t e.1 ≠ none
  all : ∀ name, (∀ t, start ≤ t → d t name ≠ none) → (entries.map (·.1)).count name = 1

/-- from the moment `start` on, the file is there and does not change -/
def Stable (d : ChangingFolder) (start : Nat) (name : Str) (f : FileObj) : Prop := ∀ t, start ≤ t → d t name = some f

end Spec
