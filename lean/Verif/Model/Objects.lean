import Verif.Model.Shared
/-!
# Objects, lists and fields as objects of their own

In the other files of the model a `Record` has a list of fields. In Python it has a reference to a list of references to
`Field`s: a caller can keep `r.fields`, change it, or copy `r` with `copy.copy`, so that two objects have the same list.
Here lists and `Field`s have addresses. What the methods do is what their programs in `Model/Shared.lean` say, where the
one assignment `self.fields = ...` makes a new list of new `Field`s (definitions/*.py: every `read_*` method returns
`[Field(...), ...]`).
-/
namespace Arinc
open Py

/-- The attributes of a `Record`; `fields` is the address of the list. -/
structure RecObj where
  ident : Str
  raw : Str
  continuation : Str
  fields : Nat
  definition : Option Definition

/-- `Field`s and lists (of addresses of `Field`s), by address -/
structure Store where
  cells : List Field
  lists : List (List Nat)

/-- what is in the list at this address -/
def Store.get (s : Store) (l : Nat) : List Field :=
  match s.lists[l]? with
  | none => []
  | some as => as.filterMap (s.cells[·]?)

/-- a new list of new `Field`s -/
def Store.alloc (s : Store) (fs : List Field) : Store :=
  ⟨s.cells ++ fs, s.lists ++ [List.range' s.cells.length fs.length]⟩

/-- the object with what is in its list -/
def RecObj.view (o : RecObj) (s : Store) : Record := ⟨o.ident, o.raw, o.continuation, s.get o.fields, o.definition⟩

/-- what the run of a program gives -/
structure ShOut (α : Type) where
  res : α
  obj : RecObj
  store : Store
  out : List Event

/-- A method runs on an object, without other threads. -/
def Sh.exec {α : Type} : Sh α → RecObj → Store → ShOut α
  | .done r, o, s => ⟨r, o, s, []⟩
  | .print e k, o, s => { k.exec o s with out := e :: (k.exec o s).out }
  | .getIdent k, o, s => (k o.ident).exec o s
  | .getRaw k, o, s => (k o.raw).exec o s
  | .getCont k, o, s => (k o.continuation).exec o s
  | .getFields k, o, s => (k (s.get o.fields)).exec o s
  | .getDef k, o, s => (k o.definition).exec o s
  | .setIdent v k, o, s => k.exec { o with ident := v } s
  | .setRaw v k, o, s => k.exec { o with raw := v } s
  | .setCont v k, o, s => k.exec { o with continuation := v } s
  | .setFields v k, o, s => k.exec { o with fields := s.lists.length } (s.alloc v)
  | .setDef v k, o, s => k.exec { o with definition := v } s

/-- All objects: `Record`s (by number, in the order they were made), lists, `Field`s. -/
structure Heap where
  recs : List RecObj
  store : Store

/-- What a caller does. -/
inductive ObjOp where
  /-- `Record()`, record.py:91-96 -/
  | new
  /-- `copy.copy(r)`: a new object with the same attributes -/
  | copy (i : Nat)
  /-- a method of `r` -/
  | call (i : Nat) (c : Call)
  /-- `f.name = ...; f.value = ...; f.decode_fn = ...` -/
  | setField (a : Nat) (f : Field)
  /-- `l[:] = [...]`, and so what `append`, `del`, `sort`, `clear`, ... do -/
  | setList (l : Nat) (as : List Nat)
  /-- `Field(name, value, decode_fn)`, decoder.py:8-11 -/
  | newField (f : Field)
  /-- a new list of these `Field`s -/
  | newList (as : List Nat)
  /-- `r.fields = l` -/
  | setFields (i l : Nat)
  /-- `r.ident = ...; r.raw = ...; r.continuation = ...` -/
  | setTexts (i : Nat) (ident raw continuation : Str)

/-- the objects named by the operation exist -/
def ObjOp.possible (h : Heap) : ObjOp → Bool
  | .new | .newField _ => true
  | .copy i | .call i _ | .setTexts i _ _ _ => decide (i < h.recs.length)
  | .setField a _ => decide (a < h.store.cells.length)
  | .setList l as => decide (l < h.store.lists.length) && as.all fun a => decide (a < h.store.cells.length)
  | .newList as => as.all fun a => decide (a < h.store.cells.length)
  | .setFields i l => decide (i < h.recs.length) && decide (l < h.store.lists.length)

variable [PyUnicode]

/-- One operation, and what it gives and prints if it is a call. -/
def Heap.step (h : Heap) : ObjOp → Heap × Option (Result × List Event)
  | .new => (⟨h.recs ++ [⟨[], [], [], h.store.lists.length, none⟩], h.store.alloc []⟩, none)
  | .copy i =>
    match h.recs[i]? with
    | none => (h, none)
    | some o => ({ h with recs := h.recs ++ [o] }, none)
  | .call i c =>
    match h.recs[i]? with
    | none => (h, none)
    | some o =>
      let x := c.prog.exec o h.store
      (⟨h.recs.set i x.obj, x.store⟩, some (x.res, x.out))
  | .setField a f => ({ h with store := { h.store with cells := h.store.cells.set a f } }, none)
  | .setList l as => ({ h with store := { h.store with lists := h.store.lists.set l as } }, none)
  | .newField f => ({ h with store := { h.store with cells := h.store.cells ++ [f] } }, none)
  | .newList as => ({ h with store := { h.store with lists := h.store.lists ++ [as] } }, none)
  | .setFields i l =>
    match h.recs[i]? with
    | none => (h, none)
    | some o => ({ h with recs := h.recs.set i { o with fields := l } }, none)
  | .setTexts i a b c =>
    match h.recs[i]? with
    | none => (h, none)
    | some o => ({ h with recs := h.recs.set i { o with ident := a, raw := b, continuation := c } }, none)

/-- a program of the caller; an operation on objects that do not exist cannot be written and is left out -/
def Heap.run (h : Heap) : List ObjOp → Heap × List (Option (Result × List Event))
  | [] => (h, [])
  | op :: ops =>
    if op.possible h then
      let x := h.step op
      let rest := x.1.run ops
      (rest.1, x.2 :: rest.2)
    else h.run ops

/-- after `import arinc424` -/
def Heap.start : Heap := ⟨[], ⟨[], []⟩⟩

/-- the object with what is in its list -/
def Heap.view (h : Heap) (i : Nat) : Option Record := h.recs[i]?.map (·.view h.store)

end Arinc
