import Verif.Spec.Repr
import Verif.Spec.Plain
/-!
# Specification: the table that `decode` shows
-/
namespace Spec
open Py Arinc

/-- `Joined ls s`: the text `s` consists of the lines `ls` -/
inductive Joined : List Str → Str → Prop
  | one {l : Str} (h : 10 ∉ l) : Joined [l] l
  | more {l s : Str} {ls : List Str} (h : 10 ∉ l) (hs : Joined ls s) : Joined (l :: ls) (l ++ 10 :: s)

/-- `Filled n s t`: `t` is `s` with blanks after it, `n` characters in all -/
def Filled (n : ℕ) (s t : Str) : Prop := ∃ m, t = s ++ List.replicate m 32 ∧ t.length = n

/-- `+----+----+----+` -/
def IsRule (a b c : ℕ) (l : Str) : Prop :=
  l = py!"+" ++ List.replicate (a + 2) 45 ++ py!"+" ++ List.replicate (b + 2) 45 ++ py!"+" ++
    List.replicate (c + 2) 45 ++ py!"+"

/-- `| x  | y  | z  |` -/
def Holds (a b c : ℕ) (x y z l : Str) : Prop :=
  ∃ x' y' z', Filled a x x' ∧ Filled b y y' ∧ Filled c z z' ∧
    l = py!"| " ++ x' ++ py!" | " ++ y' ++ py!" | " ++ z' ++ py!" |"

/-- a row: name, raw value (in quotes), decoded value -/
structure Line3 where
  name : Str
  value : Str
  decoded : Str

/-- the lines of a row: its name, its value and the first line of the decoded value; the other lines of the decoded value
    are below that one -/
inductive RowLines (a b c : ℕ) (r : Line3) : List Str → Prop
  | mk {d l : Str} {ds ls : List Str} (hd : Joined (d :: ds) r.decoded) (hl : Holds a b c r.name r.value d l)
      (hs : List.Forall₂ (Holds a b c [] []) ds ls) : RowLines a b c r (l :: ls)

/-- the table -/
inductive Drawn (a b c : ℕ) (rows : List Line3) : Str → Prop
  | mk {rule head t : Str} {body : List (List Str)} (hr : IsRule a b c rule)
      (hh : Holds a b c (py!"Field") (py!"Value") (py!"Decoded") head) (hb : List.Forall₂ (RowLines a b c) rows body)
      (ht : Joined (rule :: head :: rule :: (body.flatten ++ [rule])) t) : Drawn a b c rows t

/-- the number `n` is the greatest length of the texts -/
def Widest (n : ℕ) (ss : List Str) : Prop := (∀ s ∈ ss, s.length ≤ n) ∧ ∃ s ∈ ss, s.length = n

/-- the texts are the same, but for blanks at the end -/
def SameButBlanks (s t : Str) : Prop := ∃ m n, s ++ List.replicate m 32 = t ++ List.replicate n 32

/-- the rows are the same, but for blanks at the end of a line of the decoded value -/
structure SameRow (r r' : Line3) : Prop where
  name : SameButBlanks r.name r'.name
  value : r.value = r'.value
  decoded : ∃ ds ds', Joined ds r.decoded ∧ Joined ds' r'.decoded ∧ List.Forall₂ SameButBlanks ds ds'

/-- the texts that take as many columns on a screen as they have characters -/
def Printable (s : Str) : Prop := ∀ c ∈ s, 32 ≤ c ∧ c ≤ 126

/-- what is assumed about the width of texts on a screen -/
def AsciiWidth (width : Str → ℤ) : Prop := ∀ s, Printable s → width s = s.length

/-- the rows that `decode` makes: name and value are single lines, and the value is in quotes -/
structure Sound (r : Line3) : Prop where
  name : Printable r.name
  value : ∃ v, Printable v ∧ r.value = py!"'" ++ v ++ py!"'"
  decoded : ∀ c ∈ r.decoded, Plain c

/-- the texts of the rows -/
def ShownAs : List Row → List Line3 → Prop :=
  List.Forall₂ fun r l => l.name = r.field ∧ l.value = r.value ∧ CellText r.decoded l.decoded

/-- a line of printable characters, with or without the end of the line -/
def OneLine (line : Str) : Prop := ∃ body, Printable body ∧ (line = body ∨ line = body ++ [10])

end Spec
