import Verif.Spec.Source
import Verif.Model.SourceLibrary
/-!
# Specification: the source of the library

Objects of the model as values of the language, and what the modules hold after they have been imported.
-/
namespace Spec
open Py Arinc Arinc.Lang

/-- `Field(name, value, decoder.field_NNN)` -/
def fieldVal (f : Arinc.Field) : Val :=
  .obj (py!"Field") [(py!"name", .str f.name), (py!"value", .str f.value), (py!"decode_fn", .fn (nameOf f.dec))]

/-- the attributes that `__init__` of a class in definitions/*.py sets, by the key in `records` -/
def defAttrs (key : Str) : List (Str × Val) :=
  if key = py!"EA" then [(py!"enroute", .bool true)]
  else if key = py!"PC" then [(py!"enroute", .bool false)]
  else if key = py!"HK" ∨ key = py!"HS" then
    [(py!"heliport", .bool true), (py!"id_name", .str (py!"Heliport Identifier"))]
  else if key = py!"PK" ∨ key = py!"PS" then
    [(py!"heliport", .bool false), (py!"id_name", .str (py!"Airport Identifier"))]
  else []

/-- the object `records[key]` -/
def defVal (key : Str) (d : Definition) : Val := .obj d.cls (defAttrs key)

/-- `records`, a `defaultdict` with its entries -/
def recordsVal : Val := .dict (.bool false) (registry.map fun p => (p.1, defVal p.1 p.2))

/-- a `Record` -/
def recordVal (r : Arinc.Record) : Val :=
  .obj (py!"Record") [(py!"ident", .str r.ident), (py!"raw", .str r.raw), (py!"continuation", .str r.continuation),
    (py!"fields", .list (r.fields.map fieldVal)),
    (py!"definition", match r.definition with
      | none => .int (-1)
      | some d => defVal r.ident d)]

/-- the result of `read` of a class in definitions/*.py, where the exceptions of the model are those of the record type -/
def fieldsOf [PyUnicode] (key line : Str) : Except Exc (List Arinc.Field) → Except Err Val
  | .ok fs => .ok (.list (fs.map fieldVal))
  | .error .valueError => .error (.fault (unknownApplication key line))
  | .error e => .error (.fault (.other e))

/-- a result of the model that is a `bool`, in the language -/
def boolRes : Except Fault Bool → Except Err Val
  | .ok b => .ok (.bool b)
  | .error e => .error (.fault e)

/-- a result of the model that is `None`, in the language -/
def noneRes : Except Fault Unit → Except Err Val
  | .ok () => .ok .none
  | .error e => .error (.fault e)

/-- a result of the model that is a table, shown as text, in the language -/
def tableRes (sc : Screen) : Except Fault (List Row) → Except Err Val
  | .ok rows => match shownTable sc.width rows with
    | some t => .ok (.str t)
    | none => .error .stuck
  | .error e => .error (.fault e)

/-- is it `True`? -/
def isTrue : Val → Bool
  | .bool b => b
  | _ => false

/-- what `search` is given to look for: a text, or a list of texts -/
def filtersVal : Filters → Option Val
  | .str s => some (.str s)
  | .list ss => some (.list (ss.map .str))
  | .other => none

end Spec
