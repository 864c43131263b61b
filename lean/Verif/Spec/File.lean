import Verif.Spec.Shape
import Verif.Spec.History
/-!
# Specification: text files and searching
-/
namespace Spec
open Py Arinc

/-- no line terminator inside -/
def NoEOL (l : Str) : Prop := ∀ c ∈ l, c ≠ 10 ∧ c ≠ 13

instance (l : Str) : Decidable (NoEOL l) := inferInstanceAs (Decidable (∀ c ∈ l, c ≠ 10 ∧ c ≠ 13))

/-- `Lines s ls`: the text `s` consists of the lines `ls`. A line is terminated by LF, CR LF or CR;
    the last one may be unterminated, and there is no empty last line. -/
inductive Lines : Str → List Str → Prop
  | nil : Lines [] []
  | last {l : Str} (h : NoEOL l) (hne : l ≠ []) : Lines l [l]
  | lf {l s : Str} {ls : List Str} (h : NoEOL l) (t : Lines s ls) : Lines (l ++ 10 :: s) (l :: ls)
  | crlf {l s : Str} {ls : List Str} (h : NoEOL l) (t : Lines s ls) :
      Lines (l ++ 13 :: 10 :: s) (l :: ls)
  | cr {l s : Str} {ls : List Str} (h : NoEOL l) (t : Lines s ls) (hs : s.head? ≠ some 10) :
      Lines (l ++ 13 :: s) (l :: ls)

/-- `Complete a s`: every line of `a` is terminated, and putting `s` behind `a` does not change how
    `a` is terminated (a final CR does not become CR LF). -/
inductive Complete : Str → Str → Prop
  | nil (s : Str) : Complete [] s
  | lf (a s : Str) : Complete (a ++ [10]) s
  | cr (a s : Str) (h : s.head? ≠ some 10) : Complete (a ++ [13]) s

/-- the lines `ls`, each followed by the line terminator `eol` -/
def terminated (eol : Str) (ls : List Str) : Str := ls.flatMap (· ++ eol)

/-- the record text `t` contains what `filters` asks for -/
def Matches (filters : Filters) (t : Str) : Prop :=
  match filters with
  | .str s => s <:+: t
  | .list ss => ∀ s ∈ ss, s <:+: t
  | .other => True

/-- `search` should report this line: `read` accepts it and it contains what is asked for -/
def Hit [PyUnicode] (filters : Filters) (line : Str) : Prop :=
  (Record.new.read line).res = .ok true ∧ Matches filters (strip line)

open Classical in
/-- the lines to be reported, in order -/
noncomputable def hits [PyUnicode] (filters : Filters) (ls : List Str) : List Str :=
  ls.filter (fun l => decide (Hit filters l))

/-- not the closing summary of `search` -/
def notSummary : Event → Bool
  | .summary _ _ _ => false
  | _ => true

/-- what `search` printed apart from the summary -/
def body (out : List Event) : List Event := out.filter notSummary

end Spec
