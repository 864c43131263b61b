import Verif.Py.Num
/-!
# `str(float)`

CPython: `float.__repr__`, i.e. `PyOS_double_to_string(x, 'r', 0, Py_DTSF_ADD_DOT_0, NULL)`: the shortest decimal
number that reads back as the same double, and of these the one nearest to it.
-/
namespace Py

/-- Of the two multiples `d * 10^k` next to the double `x = num/den`, the one that reads back as `x`, or the nearer one
    if both do. -/
def backAt (x : Dbl) (num den : Nat) (k : Int) : Option Nat :=
  let s : Nat × Nat := if 0 ≤ k then (num, den * 10 ^ k.toNat) else (num * 10 ^ (-k).toNat, den)
  let lo := s.1 / s.2
  if decDbl false lo k = x then
    if decDbl false (lo + 1) k = x then some (rne s.1 s.2) else some lo
  else if decDbl false (lo + 1) k = x then some (lo + 1) else none

/-- the first `k`, going down, for which there is one -/
def shortest (x : Dbl) (num den : Nat) : Nat → Int → Option (Nat × Int)
  | 0, _ => none
  | fuel + 1, k => match backAt x num den k with
    | some d => some (d, k)
    | none => shortest x num den fuel (k - 1)

/-- `format_float_short` with format code `'r'`: the text of `n * 10^k` -/
def layoutRepr (n : Nat) (k : Int) : Str :=
  let digits := natStr n
  let point : Int := digits.length + k
  if -4 < point ∧ point ≤ 16 then
    if point ≤ 0 then py!"0." ++ List.replicate (-point).toNat 48 ++ digits
    else if 0 ≤ k then digits ++ List.replicate k.toNat 48 ++ py!".0"
    else digits.take point.toNat ++ py!"." ++ digits.drop point.toNat
  else
    let e := point - 1
    digits.take 1 ++ (if digits.length = 1 then [] else py!"." ++ digits.drop 1) ++ py!"e" ++
      (if e < 0 then py!"-" else py!"+") ++ zfill 2 (natStr e.natAbs)

/-- `str(x)`. `none` stands for a search that did not end, which does not happen for doubles in the form `roundDbl`
    makes them: the exact value of a double has at most 1074 decimals (`C87_str`, `C87_one`). -/
def Dbl.repr (x : Dbl) : Option Str :=
  match x with
  | .nan => some (py!"nan")
  | .inf neg => some (if neg then py!"-inf" else py!"inf")
  | .fin neg m e =>
    if m = 0 then some ((if neg then [45] else []) ++ py!"0.0")
    else
      let num := (dblFrac m e).1
      let den := (dblFrac m e).2
      let start := (natStr (num / den)).length
      (shortest (.fin false m e) num den (start + 1075) start).map fun p =>
        (if neg then [45] else []) ++ layoutRepr p.1 p.2

end Py
