import Lean.Elab.Term
/-!
`py!"..."` : a Python string literal as the list of its code points.

Strings are represented as `List Nat` (see `Verif/Py/Str.lean`); this elaborator
only spares us from writing `[83, 116, ...]` by hand.
-/
open Lean Elab Term in
/-- `py!"SUP"` elaborates to `[83, 85, 80] : List Nat`. -/
elab "py!" s:str : term => do
  let cs := s.getString.toList.map (fun c => mkNatLit c.toNat)
  let nat := Lean.mkConst ``Nat
  return cs.foldr (fun c acc => mkApp3 (Lean.mkConst ``List.cons [Level.zero]) nat c acc)
    (mkApp (Lean.mkConst ``List.nil [Level.zero]) nat)
