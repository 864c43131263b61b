import Verif.Spec.Repr
/-!
# Specification: the characters that are printed
-/
namespace Spec
open Py Arinc

/-- `Shown e s`: the text `s` is part of what is printed -/
inductive Shown : Event → Str → Prop
  | line {s : Str} : Shown (.line s) s
  | name {rows : List Row} {r : Row} (h : r ∈ rows) : Shown (.table rows) r.field
  | value {rows : List Row} {r : Row} (h : r ∈ rows) : Shown (.table rows) r.value
  | cell {rows : List Row} {r : Row} {s : Str} (h : r ∈ rows) (hs : CellText r.decoded s) : Shown (.table rows) s
  | legTime {v : Str} {e : LegErr} : Shown (.legTime v e) v
  | legError {v s : Str} : Shown (.legTime v (.notInt s)) s
  | filter {n : ℕ} {s : Str} {g : Bool} : Shown (.summary n (.str s) g) s
  | filters {n : ℕ} {s : Str} {ss : List Str} {g : Bool} (h : s ∈ ss) : Shown (.summary n (.list ss) g) s

/-- the character `c` is printed -/
def Seen (out : List Event) (c : ℕ) : Prop := ∃ e ∈ out, ∃ s, Shown e s ∧ c ∈ s

/-- the character `c` occurs in the filter -/
def InFilter (c : ℕ) : Filters → Prop
  | .str s => c ∈ s
  | .list ss => ∃ s ∈ ss, c ∈ s
  | .other => False

end Spec
