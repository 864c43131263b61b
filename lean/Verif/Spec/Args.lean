import Verif.Model.Args
import Verif.Spec.Fate
/-!
# Specification: what `search` should do, and does, with filters of any type
-/
namespace Spec
open Py Arinc Spec.Std

/-- The record text `t` contains the given substrings, in the sense of the documentation ("find all the records that
    contain given substrings"): the string, or every string of the collection. -/
def Wanted (filters : FilterArg) (t : Str) : Prop :=
  match filters with
  | .str s => s <:+: t
  | .list xs | .collection xs => ∀ s, .str s ∈ xs → s <:+: t
  | .obj => True

/-- the argument is a string or a list of strings -/
def Proper : FilterArg → Prop
  | .str _ => True
  | .list xs => ∀ x ∈ xs, ∃ s, x = .str s
  | _ => False

/-- what a list of filters says of a record text -/
inductive Judgement where
  | yes
  | no
  | typeError
deriving DecidableEq

/-- The filters are tried from left to right: a string that does not occur settles the matter, and so does something
    that is not a string. -/
inductive Tried (t : Str) : List Elem → Judgement → Prop
  | all : Tried t [] .yes
  | next {s : Str} {xs : List Elem} {v : Judgement} (h : s <:+: t) (r : Tried t xs v) : Tried t (.str s :: xs) v
  | absent {s : Str} {xs : List Elem} (h : ¬ s <:+: t) : Tried t (.str s :: xs) .no
  | obj {xs : List Elem} : Tried t (.obj :: xs) .typeError

/-- what a filter argument says of a record text -/
inductive Says (t : Str) : FilterArg → Judgement → Prop
  | occurs {s : Str} (h : s <:+: t) : Says t (.str s) .yes
  | absent {s : Str} (h : ¬ s <:+: t) : Says t (.str s) .no
  | list {xs : List Elem} {v : Judgement} (h : Tried t xs v) : Says t (.list xs) v
  /-- a tuple or set of filters is ignored -/
  | collection {xs : List Elem} : Says t (.collection xs) .yes
  | obj : Says t .obj .yes

/-- What `search` does with the lines of a file, of which it has found `n` before: how it ends, what is printed, and
    the summary. -/
inductive ArgRun [PyUnicode] (filters : FilterArg) :
    Nat → List Str → Except SearchExc Unit → List Event → Option (Nat × Bool) → Prop
  | done (n : Nat) : ArgRun filters n [] (.ok ()) [] (some (n, n != 0))
  | found {n : Nat} {l : Str} {ls : List Str} {t k : Str} {fs : List StdField} {res : Except SearchExc Unit}
      {out : List Event} {sum : Option (Nat × Bool)} (h : FateOf [] l (.record t k fs)) (hv : Says t filters .yes)
      (r : ArgRun filters (n + 1) ls res out sum) : ArgRun filters n (l :: ls) res (.line t :: out) sum
  | other {n : Nat} {l : Str} {ls : List Str} {t k : Str} {fs : List StdField} {res : Except SearchExc Unit}
      {out : List Event} {sum : Option (Nat × Bool)} (h : FateOf [] l (.record t k fs)) (hv : Says t filters .no)
      (r : ArgRun filters n ls res out sum) : ArgRun filters n (l :: ls) res out sum
  /-- a filter that is not a string ends the search, without a summary -/
  | typeError {n : Nat} {l : Str} {ls : List Str} {t k : Str} {fs : List StdField}
      (h : FateOf [] l (.record t k fs)) (hv : Says t filters .typeError) :
      ArgRun filters n (l :: ls) (.error .typeError) [] none
  | skip {n : Nat} {l : Str} {ls : List Str} {f : Fate} {res : Except SearchExc Unit} {out : List Event}
      {sum : Option (Nat × Bool)} (h : FateOf [] l f) (hf : f.returns = .ok false)
      (r : ArgRun filters n ls res out sum) : ArgRun filters n (l :: ls) res (f.prints ++ out) sum
  | stop {n : Nat} {l : Str} {ls : List Str} {t k : Str} (h : FateOf [] l (.refused t k)) :
      ArgRun filters n (l :: ls) (.error (.exc .valueError)) [] none

end Spec
