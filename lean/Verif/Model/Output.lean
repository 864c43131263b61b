import Verif.Model.Interrupt
import Verif.Model.Summary
/-!
# Standard output that cannot represent every character

`print` encodes its text in the encoding of standard output (ASCII with `LC_ALL=C` before Python 3.7, a code page on
Windows when the output is redirected, otherwise mostly UTF-8, which has no surrogates). A text with a character that
this encoding lacks raises `UnicodeEncodeError`, and nothing of the text is written. Every `print` of the library is
given one text (`__init__.py:35, 37`, decoder.py:495, 496, 760, 1191, record.py:142-144, 172, 185). The exception is a
`ValueError`, but no `print` is in the `try` block of the only handler (decoder.py:757-760), so it leaves the call.

Here a call is a program that shows its prints (`Model/Threads.lean`). The frame and the titles of a table (PrettyTable)
and the colour codes (termcolor) are ASCII and can be represented: `C107_encoding`. Assumed: so can the text of filters
that are neither `str` nor `list` of `str`.
-/
namespace Arinc
open Py
variable [PyUnicode]

omit [PyUnicode] in
/-- Can the text of this `print` be encoded? `can`: the characters of the encoding; `printable`: see
    `Model/Summary.lean`. Numbers and `None` in a table are ASCII. The text of the exception in decoder.py:760 is ASCII
    but for a character of the value, escaped or not. -/
def Event.fits (can printable : Nat → Bool) : Event → Bool
  | .line s => s.all can
  | .table rows => rows.all fun r => r.field.all can && r.value.all can &&
    match r.decoded with
    | .str s => s.all can
    | _ => true
  | .legTime v _ => v.all can
  | .summary n filters _ => match summaryText printable n filters with
    | some t => t.all can
    | none => true

omit [PyUnicode] in
/-- the program up to the first `print` that fails: its result if there is none, the tables, what was printed -/
def Prog.runOn {α : Type} (fits : Event → Bool) : Prog α → Legs → Reg → Option (Except Exc α) × Legs × Reg × List Event
  | .done r, legs, reg => (some r, legs, reg, [])
  | .print e k, legs, reg =>
    if fits e then
      let x := k.runOn fits legs reg
      (x.1, x.2.1, x.2.2.1, e :: x.2.2.2)
    else (none, legs, reg, [])
  | .find v k, legs, reg => (k (legs.lookup v)).runOn fits legs reg
  | .store v s k, legs, reg => k.runOn fits (setItem legs v s) reg
  | .has key k, legs, reg => (k (reg.has key)).runOn fits legs reg
  | .get key k, legs, reg => (k (reg.get key).1).runOn fits legs (reg.get key).2

/-- what the caller sees -/
inductive Ended where
  /-- the call returned or raised as it does on any output -/
  | ended (r : Result) (out : List Event)
  /-- it raised `UnicodeEncodeError` -/
  | encodeError (out : List Event)
deriving DecidableEq

/-- The objects after a `print` failed: `read` prints when all its assignments are done (record.py:142-145, 152-155),
    the other calls assign to no object of the caller. -/
def World.leftOn (w : World) : Op → Nat → Record
  | .read i line => (w.set i ((w.objs i).readG w.reg line).2.obj).objs
  | _ => w.objs

/-- one call -/
def World.stepOn (fits : Event → Bool) (w : World) (op : Op) : World × Ended :=
  let x := (callM w.objs op).runOn fits w.legs w.reg
  match x.1 with
  | some (.ok (objs, r)) => (⟨objs, x.2.2.1, x.2.1⟩, .ended r x.2.2.2)
  | some (.error _) => (w, .encodeError [])  -- not reached: an exception is a `Result`
  | none => (⟨w.leftOn op, x.2.2.1, x.2.1⟩, .encodeError x.2.2.2)

/-- a sequence of calls -/
def World.runOn (fits : Event → Bool) (w : World) : List Op → World × List Ended
  | [] => (w, [])
  | op :: ops =>
    let x := (w.stepOn fits op).1.runOn fits ops
    (x.1, (w.stepOn fits op).2 :: x.2)

end Arinc
