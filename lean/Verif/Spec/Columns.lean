import Verif.Spec.Shape
import Verif.Model.Types
/-!
# Specification: which columns the fields of a record show

Vocabulary for properties relating fields of one record to each other and to the columns that decide
how the record is read, and the lists of record kinds for which a property is false of the code.
-/
namespace Spec
open Py Arinc

/-- value of the first field of that name -/
def shown (fields : List Field) (name : Str) : Option Str :=
  (fields.find? (fun f => f.name = name)).map (·.value)

/-- A kind of record: section, primary record or not, application type (`none`: any). -/
structure Kind where
  section_ : Str
  primary : Bool
  app : Option Str
deriving DecidableEq

/-- the kinds listed include this one -/
def listed (kinds : List Kind) (section_ : Str) (primary : Bool) (app : Str) : Bool :=
  kinds.any fun k => k.section_ = section_ && k.primary = primary && (k.app = none || k.app = some app)

/-- The line has its section code where records of the section have it: columns 5 and 13 for the
    airport (P) and heliport (H) sections, columns 5-6 for the others. -/
def SectionInPlace (line section_ : Str) : Prop :=
  if section_.head? = some 80 ∨ section_.head? = some 72 then col line 4 ++ col line 12 = section_
  else cols line 4 6 = section_

instance (line section_ : Str) : Decidable (SectionInPlace line section_) := by
  unfold SectionInPlace; infer_instance

/-- names of the field that shows the continuation number -/
def contNames : List Str := [py!"Continuation Record No", py!"Continuation Number"]

/-- kinds in which that field is cut from other columns -/
def contMisplaced : List Kind :=
  [⟨py!"PT", true, none⟩, ⟨py!"PT", false, none⟩, ⟨py!"HK", false, none⟩, ⟨py!"PK", false, none⟩]

/-- kinds in which the field 'Application Type' is cut from another column -/
def appMisplaced : List Kind := [⟨py!"EP", false, none⟩, ⟨py!"EU", false, none⟩]

/-- kinds in which the field 'Section Code' is cut from columns 5-6 although the section is in columns 5
    and 13 -/
def sectionMisplaced : List Kind := [⟨py!"PN", true, none⟩, ⟨py!"PN", false, none⟩]

/-- the fields before the continuation number: those that identify what the record is about -/
def keyFields (fields : List Field) : List Field := fields.takeWhile (fun f => f.name ∉ contNames)

/-- kinds of continuation records whose key fields differ from those of the primary record -/
def keysDiffer : List Kind :=
  [⟨py!"HK", false, none⟩, ⟨py!"PK", false, none⟩, ⟨py!"PA", false, some (py!"P")⟩]

/-- kinds in which a column belongs to two fields -/
def overlapping : List Kind :=
  [⟨py!"D ", false, some (py!"L")⟩, ⟨py!"D ", false, some (py!"P")⟩, ⟨py!"DB", false, some (py!"P")⟩,
   ⟨py!"PN", false, some (py!"P")⟩, ⟨py!"EP", false, some (py!"A")⟩,
   ⟨py!"HK", true, none⟩, ⟨py!"HK", false, some (py!"A")⟩, ⟨py!"PK", true, none⟩,
   ⟨py!"PK", false, some (py!"A")⟩, ⟨py!"R ", true, none⟩, ⟨py!"R ", false, none⟩,
   ⟨py!"UC", true, none⟩, ⟨py!"UC", false, some (py!"A")⟩, ⟨py!"UR", false, some (py!"T")⟩,
   ⟨py!"UR", false, some (py!"C")⟩]

/-- field types (ARINC-424 chapter 5 number of the decoder) that occur with more than one width -/
def mixedWidth : List DecFn :=
  [.f004, .f008, .f012, .ident 14, .f016, .f029, .ident 35, .ident 36, .ident 37, .ident 61, .ident 67,
   .ident 93, .ident 94, .ident 105, .ident 116, .ident 120, .ident 121, .ident 132, .ident 133,
   .ident 144, .ident 153, .ident 208, .ident 211]

/-- the two lines have the same characters except perhaps in column `c` (0-based) -/
def AgreeExcept (c : Nat) (l₁ l₂ : Str) : Prop := ∀ i, i ≠ c → l₁[i]? = l₂[i]?

end Spec
