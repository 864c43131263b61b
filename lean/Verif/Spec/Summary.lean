import Verif.Spec.Json
/-!
# Specification: reading a list of strings as Python writes it

The part of Python's grammar for string literals and list displays that is needed to read back what a summary shows
(Python reference, 2.4.1 "String and Bytes literals"). Independent of how `repr` chooses between the ways to write a
character.
-/
namespace Spec
open Py

/-- the number that `k` hexadecimal digits at the start of the text stand for, and the rest of the text -/
def hexDigits : Nat → Nat → Str → Option (Nat × Str)
  | 0, n, t => some (n, t)
  | _ + 1, _, [] => none
  | k + 1, n, c :: t => (hexVal c).bind fun d => hexDigits k (16 * n + d) t

/-- One character of a string literal between quotes `q`: the character it stands for and the rest of the text. -/
def litChar (q : Nat) : Str → Option (Nat × Str)
  | [] => none
  | c :: t =>
    if c = q ∨ c = 10 then none
    else if c ≠ 92 then some (c, t)
    else match t with
      | [] => none
      | e :: t =>
        if e = 92 ∨ e = 39 ∨ e = 34 then some (e, t)
        else if e = 116 then some (9, t)
        else if e = 110 then some (10, t)
        else if e = 114 then some (13, t)
        else if e = 120 then hexDigits 2 0 t
        else if e = 117 then hexDigits 4 0 t
        else if e = 85 then hexDigits 8 0 t
        else none

/-- The text `t` is the rest of a string literal between quotes `q` for the string `s`, then the text `x`. -/
inductive PyLitRest (q : Nat) : Str → Str → Str → Prop
  | close (x : Str) : PyLitRest q (q :: x) [] x
  | char {t t' s x : Str} {c : Nat} (h : litChar q t = some (c, t')) (r : PyLitRest q t' s x) : PyLitRest q t (c :: s) x

/-- The text `t` is a string literal for the string `s`, in single or double quotes, then the text `x`. -/
def PyLit (t s x : Str) : Prop := ∃ q r, (q = 39 ∨ q = 34) ∧ t = q :: r ∧ PyLitRest q r s x

/-- The text `t` is string literals for the strings `ss` with `', '` between them and `']'` at the end. -/
inductive PyLitItems : Str → List Str → Prop
  | last {t s : Str} (h : PyLit t s [93]) : PyLitItems t [s]
  | more {t s x : Str} {ss : List Str} (h : PyLit t s ([44, 32] ++ x)) (r : PyLitItems x ss) : PyLitItems t (s :: ss)

/-- The text `t` is a list display for the list of strings `ss`. -/
inductive PyLitList : Str → List Str → Prop
  | empty : PyLitList [91, 93] []
  | items {t : Str} {ss : List Str} (h : PyLitItems t ss) : PyLitList (91 :: t) ss

end Spec
