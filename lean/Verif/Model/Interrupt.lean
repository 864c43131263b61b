import Verif.Model.Threads
/-!
# Calls that are interrupted

`KeyboardInterrupt` may come at any moment, and `print` fails when standard output is closed, its disk is full or its
pipe broken. The only handler in the library (decoder.py:759, `ValueError` and `IndexError` in `field_065`) has no
`print` in its `try` block, so such an exception ends the call. Here a call is a program that shows its accesses to
shared state (`Model/Threads.lean`) and may end after any number of them. Simplified: a `print` that fails prints
nothing, where CPython may have written a part of the line.
-/
namespace Arinc
open Py
variable [PyUnicode]

omit [PyUnicode] in
/-- the first `n` accesses of a program: the tables after them, and what was printed -/
def Prog.upTo {α : Type} : Nat → Prog α → Legs → Reg → Legs × Reg × List Event
  | 0, _, legs, reg => (legs, reg, [])
  | _, .done _, legs, reg => (legs, reg, [])
  | n + 1, .print e k, legs, reg =>
    let x := k.upTo n legs reg
    (x.1, x.2.1, e :: x.2.2)
  | n + 1, .find v k, legs, reg => (k (legs.lookup v)).upTo n legs reg
  | n + 1, .store v s k, legs, reg => k.upTo n (setItem legs v s) reg
  | n + 1, .has key k, legs, reg => (k (reg.has key)).upTo n legs reg
  | n + 1, .get key k, legs, reg => (k (reg.get key).1).upTo n legs (reg.get key).2

/-- What an interrupted `read` leaves in the object: anything in the attributes it assigns on its way; the fields are
    assigned at once (record.py:160), if it came so far. -/
structure Left where
  ident : Str
  raw : Str
  continuation : Str
  definition : Option Definition
  assigned : Bool

/-- the objects after an interrupted call; only `read` and `Record()` have an effect on them (record.py:91-164) -/
def spoil (objs : Nat → Record) (op : Op) (left : Left) : Nat → Record :=
  match op with
  | .new i => fun j => if j = i then (if left.assigned then Record.new else objs i) else objs j
  | .read i line => fun j => if j = i then
      ⟨left.ident, left.raw, left.continuation,
        if left.assigned then ((objs i).read line).obj.fields else (objs i).fields, left.definition⟩
      else objs j
  | _ => objs

/-- the call `op`, interrupted after `n` accesses: the process after it, and what was printed -/
def World.interrupt (w : World) (op : Op) (n : Nat) (left : Left) : World × List Event :=
  let x := (callM w.objs op).upTo n w.legs w.reg
  (⟨spoil w.objs op left, x.2.1, x.1⟩, x.2.2)

/-- a call that ends by itself, or one that is interrupted -/
inductive Item where
  | call (op : Op)
  | cut (op : Op) (n : Nat) (left : Left)

/-- what is seen of it -/
inductive Sight where
  | outcome (o : Outcome)
  | interrupted (out : List Event)

/-- a sequence of calls some of which are interrupted -/
def World.session (w : World) : List Item → World × List Sight
  | [] => (w, [])
  | .call op :: items =>
    let x := (w.step op).1.session items
    (x.1, .outcome (w.step op).2 :: x.2)
  | .cut op n left :: items =>
    let x := (w.interrupt op n left).1.session items
    (x.1, .interrupted (w.interrupt op n left).2 :: x.2)

end Arinc
