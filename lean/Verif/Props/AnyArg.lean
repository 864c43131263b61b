import Verif.Model.AnyArg
import Verif.Props.Samples
import Verif.Py.Cpython311
/-! # Properties: arguments of any type -/
namespace Arinc
open Py

/-- what was printed except tables -/
def noTable : Event → Bool
  | .table _ => false
  | _ => true

theorem isTrue_iff {o : Obj} : o.isTrue = true ↔ o = .bool true := by
  cases o with
  | bool b => cases b <;> simp [Obj.isTrue]
  | _ => simp [Obj.isTrue]

theorem decodeArg_eq [PyUnicode] (r : Record) (o : Obj) (legs : Legs) :
    r.decodeArg o legs = ⟨liftExc (r.decode o.isTrue legs).res, (r.decode o.isTrue legs).out,
      (r.decode o.isTrue legs).legs⟩ := by
  unfold Record.decodeArg Record.decode
  dsimp only
  cases (decodeRows r.info r.fields legs).res <;> rfl

theorem parseArg_eq [PyUnicode] (l : Str) (o : Obj) (legs : Legs) :
    parseArg (.str l) o legs = ⟨liftExc (parse l o.isTrue legs).res, (parse l o.isTrue legs).out,
      (parse l o.isTrue legs).legs⟩ := by
  unfold parseArg parse Record.readArg
  dsimp only
  cases h : (Record.new.read l).res with
  | error e => rfl
  | ok b =>
    cases b with
    | false => rfl
    | true =>
      simp only [liftExc, decodeArg_eq]
      cases ((Record.new.read l).obj.decode o.isTrue legs).res <;> rfl

theorem parseLinesArg_eq [PyUnicode] (o : Obj) : ∀ (ls : List Str) (legs : Legs),
    parseLinesArg o ls legs = ⟨liftExc (parseLines o.isTrue ls legs).res, (parseLines o.isTrue ls legs).out,
      (parseLines o.isTrue ls legs).legs⟩
  | [], _ => rfl
  | l :: ls, legs => by
    rw [parseLinesArg, parseLines, parseArg_eq]
    dsimp only
    cases (parse l o.isTrue legs).res with
    | error e => rfl
    | ok b => simp only [liftExc, parseLinesArg_eq o ls]

/-- **C100** `output` is no truth value: with the object `True` the functions do what they do with `True`, and with any
    other object what they do with `False`. -/
theorem C100_output [PyUnicode] (o : Obj) (flag : Bool) (h : flag = true ↔ o = .bool true) :
    (∀ (r : Record) (legs : Legs), r.decodeArg o legs =
      ⟨liftExc (r.decode flag legs).res, (r.decode flag legs).out, (r.decode flag legs).legs⟩) ∧
    (∀ (l : Str) (legs : Legs), parseArg (.str l) o legs =
      ⟨liftExc (parse l flag legs).res, (parse l flag legs).out, (parse l flag legs).legs⟩) ∧
    (∀ (f : FileObj) (legs : Legs), readFileArg f o legs =
      ⟨liftExc (readFile f flag legs).res, (readFile f flag legs).out, (readFile f flag legs).legs⟩) ∧
    (∀ (r : Record) (single : Bool), r.jsonArg o (.bool single) =
      ⟨.ok (r.json flag single).1, (r.json flag single).2, ()⟩) := by
  have hf : flag = o.isTrue := by
    cases flag with
    | true => exact (isTrue_iff.2 (h.1 rfl)).symm
    | false =>
      cases ho : o.isTrue with
      | false => rfl
      | true => exact absurd (h.2 (isTrue_iff.1 ho)) (by simp)
  subst hf
  refine ⟨fun r legs => decodeArg_eq r o legs, fun l legs => parseArg_eq l o legs, fun f legs => ?_, fun r s => ?_⟩
  · unfold readFileArg readFile
    cases f.readlines with
    | error e => rfl
    | ok ls => exact parseLinesArg_eq o ls legs
  · cases s <;> rfl

theorem decode_same [PyUnicode] (r : Record) (a b : Bool) (legs : Legs) :
    (r.decode a legs).res = (r.decode b legs).res ∧ (r.decode a legs).legs = (r.decode b legs).legs ∧
    (r.decode a legs).out.filter noTable = (r.decode b legs).out.filter noTable := by
  unfold Record.decode
  dsimp only
  cases (decodeRows r.info r.fields legs).res with
  | error e => exact ⟨rfl, rfl, rfl⟩
  | ok rows => cases a <;> cases b <;> simp [noTable]

/-- **C100** Whatever `output` is, it changes neither what `decode` returns or raises, nor what is printed apart from the
    table; and what is printed is a table at most. -/
theorem C100_output_only_prints [PyUnicode] (r : Record) (o o' : Obj) (legs : Legs) :
    (r.decodeArg o legs).res = (r.decodeArg o' legs).res ∧ (r.decodeArg o legs).state = (r.decodeArg o' legs).state ∧
    (r.decodeArg o legs).out.filter noTable = (r.decodeArg o' legs).out.filter noTable ∧
    (∀ s, (r.jsonArg o s).res = (r.jsonArg o' s).res) := by
  rw [decodeArg_eq, decodeArg_eq]
  obtain ⟨h1, h2, h3⟩ := decode_same r o.isTrue o'.isTrue legs
  refine ⟨by rw [h1], h2, h3, fun s => ?_⟩
  unfold Record.jsonArg
  cases s.truth <;> rfl

/-- **C100** `single_line` is a truth value: any object counts as what `bool` makes of it, and if its `__bool__` raises,
    so does `json`, and nothing is printed. -/
theorem C100_single_line (r : Record) (o s : Obj) :
    (s = .str [] ∨ s = .bytes [] ∨ s = .bool false ∨ s = .none ∨ s = .int 0 ∨ s = .other (some false) →
      r.jsonArg o s = r.jsonArg o (.bool false)) ∧
    (s = .other none → r.jsonArg o s = ⟨.error .own, [], ()⟩) ∧
    (¬(s = .str [] ∨ s = .bytes [] ∨ s = .bool false ∨ s = .none ∨ s = .int 0 ∨ s = .other (some false)) →
      s ≠ .other none → r.jsonArg o s = r.jsonArg o (.bool true)) := by
  have hb : ∀ b, s.truth = .ok b → r.jsonArg o s = r.jsonArg o (.bool b) := by
    intro b h
    unfold Record.jsonArg
    rw [h]; rfl
  refine ⟨fun h => hb false ?_, ?_, fun h h' => hb true ?_⟩
  · rcases h with rfl | rfl | rfl | rfl | rfl | rfl <;> rfl
  · rintro rfl; rfl
  · cases s with
    | str s => cases s <;> simp_all [Obj.truth]
    | bytes b => cases b <;> simp_all [Obj.truth]
    | bool b => cases b <;> simp_all [Obj.truth]
    | none => simp_all
    | int i => simp_all [Obj.truth]
    | other t =>
      rcases t with _ | b
      · simp_all
      · cases b <;> simp_all [Obj.truth]

/-- **C100** A `line` that is no `str` is refused with `AttributeError` or, if it is bytes, `TypeError`, by `read` and by
    `parse`: nothing is printed, the object is as it was, and so is the library. -/
theorem C100_line [PyUnicode] (r : Record) (line o : Obj) (legs : Legs) (h : ∀ s, line ≠ .str s) :
    ∃ e, (e = .exc .attributeError ∨ e = .typeError) ∧ (e = .typeError ↔ ∃ b, line = .bytes b) ∧
      r.readArg line = ⟨.error e, [], r⟩ ∧ parseArg line o legs = ⟨.error e, [], legs⟩ := by
  cases line with
  | str s => exact absurd rfl (h s)
  | bytes b => exact ⟨.typeError, .inr rfl, ⟨fun _ => ⟨b, rfl⟩, fun _ => rfl⟩, rfl, rfl⟩
  | bool b => exact ⟨.exc .attributeError, .inl rfl, ⟨nofun, nofun⟩, rfl, rfl⟩
  | none => exact ⟨.exc .attributeError, .inl rfl, ⟨nofun, nofun⟩, rfl, rfl⟩
  | int i => exact ⟨.exc .attributeError, .inl rfl, ⟨nofun, nofun⟩, rfl, rfl⟩
  | other t => exact ⟨.exc .attributeError, .inl rfl, ⟨nofun, nofun⟩, rfl, rfl⟩

/-- **C100** A path that is a `str`, bytes or path object is read as such. `None` or the number of an open folder is
    refused with `TypeError` as soon as there is an entry: no file is opened and nothing is printed. -/
theorem C100_folder [PyUnicode] (p : PathArg) (fs : List FileObj) (legs : Legs) :
    (p = .path → readFolderArg p (some fs) legs = ⟨liftExc (readFolder (some fs) legs).res,
      (readFolder (some fs) legs).out, (readFolder (some fs) legs).legs⟩) ∧
    (p ≠ .path → fs ≠ [] → readFolderArg p (some fs) legs = ⟨.error .typeError, [], legs⟩) := by
  constructor
  · rintro rfl; rfl
  · intro hp hf
    cases fs with
    | nil => exact absurd rfl hf
    | cons f fs => cases p <;> first | exact absurd rfl hp | rfl

section
attribute [local instance] Py.Tables.cpython311

/-- the hypotheses are met, and `True` prints a table where other objects print none -/
example :
    (∀ s, Obj.bytes Sample.airport ≠ .str s) ∧
    (Record.new.readArg (.bytes Sample.airport)).res = .error .typeError ∧
    (parseArg .none (.bool true) legTypeDesc).res = .error (.exc .attributeError) ∧
    (parseArg (.str Sample.airport) (.bool true) legTypeDesc).res = .ok true ∧
    (parseArg (.str Sample.airport) (.bool true) legTypeDesc).out.length = 1 ∧
    ((Record.new.read Sample.airport).obj.jsonArg (.bool false) (.int 0)).res =
      .ok (dumpsPretty (Record.new.read Sample.airport).obj.dict) ∧
    ((Record.new.read Sample.airport).obj.jsonArg (.bool true) (.other .none)).res = .error .own := by
  refine ⟨nofun, ?_⟩
  decide +kernel

/-- **C100, the full claim does not hold**: "an argument that counts as true turns the output on". `1` counts as true
    and equals `True`, but `parse(line, output=1)` and `json(output=1)` print nothing. -/
theorem C100_refuted :
    (Obj.int 1).truth = .ok true ∧
    (parseArg (.str Sample.airport) (.bool true) legTypeDesc).out ≠ [] ∧
    (parseArg (.str Sample.airport) (.int 1) legTypeDesc).out = [] ∧
    (parseArg (.str Sample.airport) (.int 1) legTypeDesc).res = .ok true ∧
    ((Record.new.read Sample.airport).obj.jsonArg (.int 1) (.bool true)).out = [] := by
  decide +kernel

end
end Arinc
