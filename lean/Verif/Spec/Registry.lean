import Verif.Model.Registry
import Verif.Spec.History
import Verif.Spec.Shape
import Verif.Spec.File
/-!
# Specification: using the table of record types
-/
namespace Spec
open Py Arinc

/-- `LineOf op l`: the call reads the line `l` -/
inductive LineOf : Op → Str → Prop
  | read {i : Nat} {l : Str} : LineOf (.read i l) l
  | parse {l : Str} {output : Bool} : LineOf (.parse l output) l
  | readFile {s : Str} {ls : List Str} {l : Str} {output : Bool} (hs : Lines s ls) (h : l ∈ ls) :
      LineOf (.readFile (.text s) output) l
  | readFolder {s : Str} {ls : List Str} {l : Str} {fs : List FileObj} (hf : .text s ∈ fs) (hs : Lines s ls)
      (h : l ∈ ls) : LineOf (.readFolder (some fs)) l
  | search {s : Str} {ls : List Str} {l : Str} {filters : Filters} (hs : Lines s ls) (h : l ∈ ls) :
      LineOf (.search (.text s) filters) l

/-- the line has this section and subsection, in columns 5 and 6 or in columns 5 and 13 -/
def Names (l key : Str) : Prop := cols l 4 6 = key ∨ col l 4 ++ col l 12 = key

/-- the call reads a line of record shape with this section and subsection -/
def Reads [PyUnicode] (op : Op) (key : Str) : Prop := ∃ l, LineOf op l ∧ WellShaped l ∧ Names l key

/-- the key whose entry in the table is not (or may not be) what it was, after this -/
def touched : RegUse → Option Str
  | .call _ | .ask _ => none
  | .lookup key => if key ∈ supported then none else some key
  | .assign key _ | .remove key => some key

/-- no call reads lines of a section whose entry was touched before, in this program or according to `before` -/
def Apart [PyUnicode] : List Str → List RegUse → Prop
  | _, [] => True
  | before, .call op :: as => (∀ key ∈ before, ¬ Reads op key) ∧ Apart before as
  | before, a :: as => Apart ((touched a).toList ++ before) as

/-- the calls of the library in a program -/
def callsOf : List RegUse → List Op
  | [] => []
  | .call op :: as => op :: callsOf as
  | _ :: as => callsOf as

end Spec
