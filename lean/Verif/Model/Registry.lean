import Verif.Model.World
/-!
# Programs that use the table of record types

`records` (record.py:44-86) is a public name of the module `arinc424.record`: a program may look into it and change
it. It is a `defaultdict` whose default is `False` (record.py:40-41), so `records[key]` enters a key that is missing.
Simplified: the objects that a program enters are like those of the library (`Definition`), and no two keys share one
that is changed.
-/
namespace Arinc
open Py
variable [PyUnicode]

omit [PyUnicode] in
/-- `records[key] = d` -/
def Reg.put (g : Reg) (key : Str) (d : Definition) : Reg :=
  match g with
  | [] => [(key, some d)]
  | (k, v) :: g => if k = key then (k, some d) :: g else (k, v) :: Reg.put g key d

/-- what a program does: call the library, or use `records` -/
inductive RegUse where
  | call (op : Op)
  /-- `records[key]` -/
  | lookup (key : Str)
  /-- `key in records`, `records.get(key)` -/
  | ask (key : Str)
  /-- `records[key] = d` -/
  | assign (key : Str) (d : Definition)
  /-- `records.pop(key, None)` -/
  | remove (key : Str)

omit [PyUnicode] in
/-- its effect on `records` (calls: see `World.step`) -/
def Reg.act (g : Reg) : RegUse → Reg
  | .lookup key => (g.get key).2
  | .assign key d => g.put key d
  | .remove key => g.filter fun p => p.1 != key
  | .call _ | .ask _ => g

/-- a program: the process after it, and the outcomes of its calls of the library -/
def World.uses (w : World) : List RegUse → World × List Outcome
  | [] => (w, [])
  | .call op :: as =>
    let x := (w.step op).1.uses as
    (x.1, (w.step op).2 :: x.2)
  | a :: as => World.uses { w with reg := w.reg.act a } as

end Arinc
