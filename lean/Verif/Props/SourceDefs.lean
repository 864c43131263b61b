import Verif.Lemmas.SourceModule
import Verif.Lemmas.SourceRead
import Verif.Props.Source
/-!
# C120: the source of definitions/*.py and of the statements of record.py

`Model/SourceDefs.lean` and `Model/SourceLibrary.lean` hold the syntax trees; `Src.library.env sc n` runs them, with calls
of a depth of up to `n`.
-/
namespace Arinc.Lang
open Py

section
variable [PyUnicode]

/-- C120, the import of record.py: its statements make `records`, a `defaultdict` with one object for each kind of record,
under the same keys and in the same order as in the model. -/
theorem C120_module (sc : Screen) (n : Nat) :
    exec (Src.library.env sc (n + 1)) Src.recordModule ⟨[], [], [], false⟩ =
      (.ok .next, ⟨[(py!"records", Spec.recordsVal)], [], [], false⟩) := import_record

/-- C120, `read` of a kind of record: for every text, and whether it is a primary record or not, the fields or the
exception of the model; nothing else changes. -/
theorem C120_read (sc : Screen) (n : Nat) (key : Str) (d : Definition) (hk : registry.lookup key = some d) (text : Str)
    (primary : Bool) (st : St) :
    (Src.library.env sc (n + 3)).callMethod d.cls (py!"read") (Spec.defVal key d) [.str text, .bool primary] st =
      (Spec.fieldsOf key text (d.read text primary), st, Spec.defVal key d) := read_definition sc n hk text primary st

/-- C120: it raises `IndexError` or the `ValueError` of the kind of record, or returns; it has no misspelt name, no wrong
number of arguments, no call of a decoder that does not exist. -/
theorem C120_never_stuck (sc : Screen) (n : Nat) (key : Str) (d : Definition) (hk : registry.lookup key = some d) (text : Str)
    (primary : Bool) (st : St) :
    ((Src.library.env sc (n + 3)).callMethod d.cls (py!"read") (Spec.defVal key d) [.str text, .bool primary] st).1 ≠
      .error .stuck := by
  rw [C120_read sc n key d hk]
  cases h : d.read text primary with
  | ok fs => simp [Spec.fieldsOf]
  | error e => cases e <;> simp [Spec.fieldsOf]

/-- C120, the class attributes `cont_idx`, `app_idx`, `name`: those of the model, and none where the model has none. The
object has no attribute of its own with such a name. -/
theorem C120_attributes (sc : Screen) (n : Nat) (key : Str) (d : Definition) (hk : registry.lookup key = some d) :
    (Src.library.env sc n).classAttr d.cls (py!"cont_idx") = d.contIdx.map (fun k => .int (.ofNat k)) ∧
    (Src.library.env sc n).classAttr d.cls (py!"app_idx") = d.appIdx.map (fun k => .int (.ofNat k)) ∧
    (Src.library.env sc n).classAttr d.cls (py!"name") = d.name.map .str ∧
    ∀ a, a = py!"cont_idx" ∨ a = py!"app_idx" ∨ a = py!"name" → find (Spec.defAttrs key) a = none := by
  have h := holds sc hk
  refine ⟨h.cont n, h.app n, h.name n, fun a ha => h.own a ?_⟩
  rcases ha with rfl | rfl | rfl <;> simp

/-- C120, `application_type`: the characters of the model. -/
theorem C120_application_type (sc : Screen) (n : Nat) (key : Str) (d : Definition) (hk : registry.lookup key = some d)
    (sl : Slice) (hs : d.appType = some sl) (raw : Str) (st : St) :
    (Src.library.env sc (n + 1)).callMethod d.cls (py!"application_type") (Spec.defVal key d) [.str raw] st =
      ((match sl.eval raw with
        | .ok t => .ok (.str t)
        | .error e => .error (.fault (.other e))), st, Spec.defVal key d) := by
  rw [(holds sc hk).appType sl hs]
  unfold plainRes
  cases sl.eval raw <;> rfl

end

section
attribute [local instance] Py.Tables.cpython311

-- a kind of record with continuation records, and its attributes
example : (match registry.lookup (py!"D ") with
    | some d => d.contIdx == some 21 && d.appIdx == some 22 && d.appType.isSome
    | none => false) = true := by decide +kernel

-- the source of `VHFNavaid.read` on a text: its fields
example : (match (Src.library.env someScreen 3).callMethod (py!"VHFNavaid") (py!"read") (.obj (py!"VHFNavaid") [])
      [.str (py!"SUSAD        ABC" ++ List.replicate 107 32 ++ py!"123456789"), .bool true] ⟨[], [], [], false⟩ with
    | (.ok (.list l), _, _) => l.length > 10
    | _ => false) = true := by decide +kernel

-- and of `Waypoint.read`, whose name of a field depends on how the object was made
example : (match (Src.library.env someScreen 3).callMethod (py!"Waypoint") (py!"read") (Spec.defVal (py!"EA") (.mk (py!"Waypoint") none none none none none (.always []) (.always [])))
      [.str (List.replicate 132 65), .bool true] ⟨[], [], [], false⟩ with
    | (.ok (.list (_ :: _)), _, _) => true
    | _ => false) = true := by decide +kernel

-- a text that is too short raises `IndexError`
example : (match (Src.library.env someScreen 3).callMethod (py!"VHFNavaid") (py!"read") (.obj (py!"VHFNavaid") [])
      [.str (py!"SUSAD"), .bool true] ⟨[], [], [], false⟩ with
    | (.error (.fault (.other .indexError)), _, _) => true
    | _ => false) = true := by decide +kernel

end
end Arinc.Lang
