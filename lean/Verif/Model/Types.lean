import Verif.Py.Num
/-!
# Shared types of the model

Hand written. The generated modules `Layouts`, `Definitions`, `Tables` (see
`tools/gen.py`) only contain values of these types.
-/
namespace Arinc
open Py

/-- The functions `field_NNN` of decoder.py. `ident n` is `field_n` when its body is
    `return value`; every other function has its own constructor. -/
inductive DecFn where
  | ident (n : Nat)
  | f002 | f003 | f004 | f007 | f008 | f009 | f010 | f012 | f016 | f017
  | f020 | f021 | f022 | f023 | f024 | f025 | f026 | f027 | f029 | f030
  | f032 | f034 | f039 | f042 | f043 | f045 | f048 | f049 | f050 | f053
  | f054 | f062 | f065 | f072 | f073 | f082 | f086 | f091 | f092 | f101
  | f102 | f103 | f104 | f106 | f108 | f112 | f113 | f117 | f118 | f123
  | f127 | f135 | f147 | f161 | f165 | f177 | f178 | f179 | f181 | f182
  | f184 | f196 | f198 | f199 | f209 | f240 | f269 | f270
deriving DecidableEq, Repr

/-- The expressions over the record text `r` that occur as the value argument of
    `Field(...)` in definitions/*.py. -/
inductive Slice where
  /-- `r[i]` -/
  | at (i : Nat)
  /-- `r[lo:hi]` -/
  | range (lo hi : Nat)
  /-- `r[i]+r[j]` -/
  | pair (i j : Nat)
deriving DecidableEq, Repr

/-- One `Field(name, slice, decoder.field_NNN)` expression. -/
structure FieldSpec where
  name : Str
  slice : Slice
  dec : DecFn
deriving DecidableEq, Repr

/-- The list of `Field(...)` a `read_*` method returns. -/
abbrev Layout := List FieldSpec

/-- What `case _:` does in a `read` method. -/
inductive Other where
  /-- `return []` -/
  | empty
  /-- `raise ValueError(...)` -/
  | raise
  /-- `return self.read_...(line)` -/
  | layout (l : Layout)
deriving DecidableEq, Repr

/-- What a `read` method does once `primary` is known. -/
inductive Branch where
  /-- `return self.read_...(line)` -/
  | always (l : Layout)
  /-- `match <app>: case ...: return self.read_...(line) ... case _: ...` where `<app>` is
      the expression `sel` over the line -/
  | onApp (sel : Slice) (cases : List (Str × Layout)) (other : Other)
deriving DecidableEq, Repr

/-- An object of one of the classes in definitions/*.py. Optional components are
    class attributes that some classes lack (`hasattr` in record.py:139,149). -/
structure Definition where
  /-- Python class name (for reference only) -/
  cls : Str
  name : Option Str
  contIdx : Option Nat
  appIdx : Option Nat
  continuations : Option (List Str)
  /-- method `application_type` -/
  appType : Option Slice
  /-- behaviour of `read(line, True)` -/
  onPrimary : Branch
  /-- behaviour of `read(line, False)` -/
  onCont : Branch
deriving DecidableEq, Repr

/-- `Field` objects (decoder.py:6-14). -/
structure Field where
  name : Str
  value : Str
  dec : DecFn
deriving DecidableEq, Repr

/-- Results of decoders: `str`, `float` (fields 62, 135, 269) or `None` (fields 9, 65). -/
inductive PyVal where
  | str (s : Str)
  | float (x : Dbl)
  | none
deriving DecidableEq, Repr

/-- A row of the table built by `Record.decode` (record.py:170): field name, quoted raw
    value, decoded value. -/
structure Row where
  field : Str
  value : Str
  decoded : PyVal
deriving DecidableEq, Repr

/-- Why `field_065` could not convert a leg time (decoder.py:759): the text of the
    exception is a function of this. -/
inductive LegErr where
  /-- `int(c)` failed on this one-character string -/
  | notInt (c : Str)
  /-- string index out of range -/
  | tooShort
deriving DecidableEq, Repr

/-- The `filters` argument of `search`: `isinstance(filters, str)`, `isinstance(filters,
    list)` (of `str`), or anything else. -/
inductive Filters where
  | str (s : Str)
  | list (ss : List Str)
  | other
deriving DecidableEq, Repr

/-- One `print` to standard output. Rendering of tables (PrettyTable), of the exception
    text in a leg-time diagnostic and of the coloured summary (termcolor) is modelled in `Model/Table.lean` and
    `Model/Stdout.lean`: each is a function of the data kept here. -/
inductive Event where
  /-- `print(s)` of a plain string -/
  | line (s : Str)
  /-- `print(table)` (record.py:172) -/
  | table (rows : List Row)
  /-- decoder.py:760 -/
  | legTime (value : Str) (err : LegErr)
  /-- __init__.py:37 -/
  | summary (count : Nat) (filters : Filters) (green : Bool)
deriving DecidableEq, Repr

end Arinc
