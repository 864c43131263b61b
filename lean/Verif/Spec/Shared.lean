import Verif.Spec.Fate
import Verif.Model.Shared
/-!
# Specification: one object used by several threads
-/
namespace Spec
open Py Arinc

/-- what thread `i` has printed so far -/
def saidBy (m : Sharing) (i : Nat) : List Event := (m.log.filter (·.1 = i)).map (·.2)

/-- `t` is the text of a record that one of the threads reads -/
def OneText [PyUnicode] (calls : Nat → Call) (t : Str) : Prop :=
  ∃ i line, calls i = .read line ∧ Padded line t ∧ IsRecord t

/-- `k` is the section of a record that one of the threads reads -/
def OneSection [PyUnicode] (calls : Nat → Call) (k : Str) : Prop :=
  ∃ i line, calls i = .read line ∧ WellShaped line ∧ Resolves line k

/-- `c` is a character of a record that one of the threads reads -/
def OneNumber [PyUnicode] (calls : Nat → Call) (c : Str) : Prop :=
  ∃ t n, OneText calls t ∧ n < 132 ∧ c = col t n

/-- `fs` are the fields of the section `k`, for primary or other records, with the columns of `line` -/
def CutFrom (line k : Str) (primary : Bool) (fs : List Field) : Prop :=
  fs = (Std.fieldsOf k primary (pick line (appColumns k))).map fun f => ⟨f.name, pick line f.shown.1, f.shown.2⟩

/-- `fs` is cut from a line that one of the threads reads, though perhaps as the record of another section that one
    of them reads -/
def OneList [PyUnicode] (calls : Nat → Call) (fs : List Field) : Prop :=
  ∃ i line k p, calls i = .read line ∧ WellShaped line ∧ OneSection calls k ∧ CutFrom line k p fs

/-- `rows` are rows for these fields, in order, with what they mean in a record of some section for which `idents`
    holds, or of no section -/
inductive SharedRows [PyUnicode] (idents : Str → Prop) : List Field → List Row → Prop
  | nil : SharedRows idents [] []
  | cons {f : Field} {fs : List Field} {v : PyVal} {rows : List Row} {ident : Str} (hi : idents ident ∨ ident = [])
      (h : (runDec f.dec f.value ⟨ident, []⟩ legTypeDesc).res = .ok v) (hs : SharedRows idents fs rows) :
      SharedRows idents (f :: fs) (⟨f.name, py!"'" ++ f.value ++ py!"'", v⟩ :: rows)

/-- what the call gives and prints without other threads -/
def aloneCall [PyUnicode] (r : Record) : Call → Result × List Event
  | .read line => (.bool (r.read line).res, (r.read line).out)
  | .decode output => (.rows (r.decode output legTypeDesc).res, (r.decode output legTypeDesc).out)
  | .json output single_line => (.text (r.json output single_line).1, (r.json output single_line).2)
  | .primary => (.bool (.ok r.primary), [])
  | .hasCont => (.bool (.ok r.hasCont), [])

end Spec
