import Verif.Model.Api
/-!
# Model: the `filters` argument of `search`, of any type

`Filters` (Model/Types.lean) knows a `str`, a `list` of `str` and "anything else". Python passes any object, and a list
can hold any objects. Here the argument is kept as the caller wrote it.

Modelled: src/arinc424/__init__.py:18-37. Simplified: an object that is neither a `str` nor a `list` is kept only with
the elements it has, if it is a collection (tuple, set, dict, ...); subclasses of `str` count as `str`, of `list` as
`list`, as `isinstance` has it; a `list` subclass that overrides `__iter__` is not modelled. The text of the summary
(which is the `str()` of the argument) is not modelled here, only its count and colour.
-/
namespace Arinc
open Py

/-- an element of a collection of filters -/
inductive Elem where
  /-- a `str` -/
  | str (s : Str)
  /-- an object of another type: `5`, `None`, `b'KSEA'`, `['KSEA']` -/
  | obj
deriving DecidableEq, Repr

/-- the `filters` argument of `search` (__init__.py:18) -/
inductive FilterArg where
  /-- `isinstance(filters, str)` (__init__.py:29) -/
  | str (s : Str)
  /-- `isinstance(filters, list)` (__init__.py:32) -/
  | list (xs : List Elem)
  /-- another collection, e.g. a tuple or a set, with its elements in the order of iteration -/
  | collection (xs : List Elem)
  /-- an object without elements, e.g. `None` or `5` -/
  | obj
deriving DecidableEq, Repr

/-- what `search` can raise: the exceptions of the model, or `TypeError` from `str.__contains__` (__init__.py:33) -/
inductive SearchExc where
  | exc (e : Exc)
  | typeError
deriving DecidableEq, Repr

/-- __init__.py:33 `all(map(r.raw.__contains__, filters))`: `map` is lazy and `all` stops at the first `False`, so
    that later elements are not looked at; `str.__contains__` raises `TypeError` if its argument is not a `str`. -/
def allIn (raw : Str) : List Elem → Except SearchExc Bool
  | [] => .ok true
  | .str s :: xs => if contains s raw then allIn raw xs else .ok false
  | .obj :: _ => .error .typeError

/-- __init__.py:29-34: does the record pass the filters? Objects that are neither `str` nor `list` fall through. -/
def FilterArg.keep (filters : FilterArg) (raw : Str) : Except SearchExc Bool :=
  match filters with
  | .str s => .ok (contains s raw)
  | .list xs => allIn raw xs
  | .collection _ => .ok true
  | .obj => .ok true

/-- what a call of `search` came to: how it ended, what it printed before the summary, and the count and the colour
    (`true`: green) of the summary, if it was printed -/
structure Searched where
  res : Except SearchExc Unit
  out : List Event
  summary : Option (Nat × Bool)
deriving Repr

/-- more was printed before -/
def Searched.after (out : List Event) (s : Searched) : Searched := { s with out := out ++ s.out }

/-- __init__.py:25-37: the loop of `search` with its counter, then the summary -/
def searchArgLines [PyUnicode] (filters : FilterArg) : List Str → Nat → Searched
  | [], count => ⟨.ok (), [], some (count, count != 0)⟩
  | l :: ls, count =>
    let r := Record.new.read l
    match r.res with
    | .error e => ⟨.error (.exc e), r.out, none⟩
    | .ok false => (searchArgLines filters ls count).after r.out
    | .ok true =>
      match filters.keep r.obj.raw with
      | .error e => ⟨.error e, r.out, none⟩
      | .ok false => (searchArgLines filters ls count).after r.out
      | .ok true => (searchArgLines filters ls (count + 1)).after (r.out ++ [.line r.obj.raw])

/-- __init__.py:18-37 `search` -/
def searchArg [PyUnicode] (f : FileObj) (filters : FilterArg) : Searched :=
  match f.readlines with
  | .error e => ⟨.error (.exc e), [], none⟩
  | .ok ls => searchArgLines filters ls 0

end Arinc
