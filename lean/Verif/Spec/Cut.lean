import Verif.Spec.File
/-!
# Specification: files that are cut short
-/
namespace Spec
open Py Arinc

/-- No line is longer than a record, whitespace around it not counted. -/
def NoneLonger (ls : List Str) : Prop := ∀ l ∈ ls, (strip l).length ≤ 132

instance (ls : List Str) : Decidable (NoneLonger ls) := inferInstanceAs (Decidable (∀ l ∈ ls, _))

/-- `CutLines ls n cut`: the lines `cut` are the first `n` of the lines `ls`, and perhaps the beginning of the next -/
inductive CutLines (ls : List Str) (n : Nat) : List Str → Prop
  | between : CutLines ls n (ls.take n)
  | within {l q : Str} (h : ls[n]? = some l) (hq : q <+: l) (hne : q ≠ []) : CutLines ls n (ls.take n ++ [q])

end Spec
