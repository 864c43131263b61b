import Verif.Spec.Meaning
import Verif.Spec.File
/-!
# Specification: what becomes of a line

Six things can become of a line; which one, and what is returned and printed, in terms of its text.
-/
namespace Spec
open Py Arinc Spec.Std

/-- what becomes of a line -/
inductive Fate where
  /-- it is not a record -/
  | notRecord
  /-- the record `t` is of no supported section -/
  | noSection (t : Str)
  /-- the record `t` of section `k`, called `name`, has the bad continuation number `number` -/
  | badNumber (t k name number : Str)
  /-- the record `t` of section `k` is of a type that is refused with an exception -/
  | refused (t k : Str)
  /-- the record `t` of section `k` is of a type without fields -/
  | noFields (t k : Str)
  /-- it is the record `t` of section `k` with these fields -/
  | record (t k : Str) (fs : List StdField)

/-- sections that raise on an unsupported application type (restriction type for EU) -/
def raising : List Str := [py!"ER", py!"EV", py!"HV", py!"PP", py!"EU"]

/-- the line is the record `t` of section `k`, with a proper continuation number if it has one -/
structure OfSection [PyUnicode] (line t k : Str) : Prop where
  padded : Padded line t
  shape : IsRecord t
  section_ : Resolves line k
  continuation : ∀ i, contColumn k = some i → isAlnum (col t i) = true

/-- `before` is the continuation number the object read before -/
inductive FateOf [PyUnicode] (before line : Str) : Fate → Prop
  | notRecord (h : ¬ WellShaped line) : FateOf before line .notRecord
  | noSection {t : Str} (hp : Padded line t) (ht : IsRecord t) (h : ∀ k, ¬ Resolves line k) :
      FateOf before line (.noSection t)
  | badNumber {t k name : Str} {i : Nat} (hp : Padded line t) (ht : IsRecord t) (hk : Resolves line k)
      (hi : contColumn k = some i) (h : isAlnum (col t i) = false) (hn : recordName k = some name) :
      FateOf before line (.badNumber t k name (col t i))
  | refused {t k : Str} (h : OfSection line t k)
      (hf : fieldsOf k (isPrimary before t k) (pick line (appColumns k)) = []) (hk : k ∈ raising) :
      FateOf before line (.refused t k)
  | noFields {t k : Str} (h : OfSection line t k)
      (hf : fieldsOf k (isPrimary before t k) (pick line (appColumns k)) = []) (hk : k ∉ raising) :
      FateOf before line (.noFields t k)
  | record {t k : Str} {fs : List StdField} (h : IsLine before line t k fs) :
      FateOf before line (.record t k fs)

/-- what `read` returns -/
def Fate.returns : Fate → Except Exc Bool
  | .record _ _ _ => .ok true
  | .refused _ _ => .error .valueError
  | _ => .ok false

/-- what `read` prints -/
def Fate.prints : Fate → List Event
  | .badNumber t _ name number =>
    [.line (py!"Unsupported " ++ name ++ py!" Continuation Record Number: \"" ++ number ++ py!"\""),
     .line (py!"Valid Continuation Record Numbers are 0, 1, 2 (through 9) A, B, C (through Z)"),
     .line (py!"Record: " ++ t)]
  | _ => []

/-- what `read` leaves of the raw text, the section and the fields of an object -/
def Fate.leaves (line : Str) : Fate → Str × Str × List Field → Str × Str × List Field
  | .notRecord, old => old
  | .noSection t, (_, k, fs) => (t, k, fs)
  | .badNumber t k _ _, (_, _, fs) => (t, k, fs)
  | .refused t k, (_, _, fs) => (t, k, fs)
  | .noFields t k, _ => (t, k, [])
  | .record t k fs, _ => (t, k, fs.map fun f => ⟨f.name, pick line f.shown.1, f.shown.2⟩)

/-! ## Fields without a meaning -/

/-- what is wrong with a leg time: the column that is not a digit -/
def legComplaint : Str → LegErr
  | [] => .tooShort
  | [a] => if 48 ≤ a ∧ a ≤ 57 then .tooShort else .notInt [a]
  | a :: b :: _ => if 48 ≤ a ∧ a ≤ 57 then .notInt [b] else .notInt [a]

/-- what becomes of a field: it is shown, perhaps with a message, or an exception is raised, perhaps with a
    message -/
inductive Verdict where
  | shown (x : Reading) (messages : List Event)
  | raised (e : Exc) (messages : List Event)
deriving DecidableEq

/-- What becomes of a field of type `fn` with the raw value `v` in the record `t` of section `k`. Values without
    a meaning are refused with `ValueError`; but leg times and boundaries are shown with a message, and a bad
    frequency ends the program with a message. -/
def verdict (k t : Str) (fn : DecFn) (v : Str) : Verdict :=
  match meaning k fn v with
  | some x => .shown x []
  | none => match fn with
    | .f065 => .shown (.text (py!"Invalid Value: \"" ++ v ++ py!"\"")) [.legTime v (legComplaint v)]
    | .f118 => .shown (.text (py!"Unsupported Value: \"" ++ v ++ py!"\""))
        [.line (py!"Unsupported Boundary Via: \"" ++ v ++ py!"\"")]
    | .f034 => .raised .systemExit
        [.line (py!"Unsupported VOR/NDB Frequency: \"" ++ strip v ++ py!"\""),
         .line (py!"from record type \"" ++ k ++ py!"\": \"" ++ t ++ py!"\"")]
    | _ => .raised .valueError []

/-- The fields of the record `t` of section `k` one after the other: the readings, or the exception raised by
    the first that raises one, and the messages up to there. -/
def tell (k t line : Str) : List StdField → Except Exc (List (Str × Str × Reading)) × List Event
  | [] => (.ok [], [])
  | f :: fs =>
    match verdict k t f.shown.2 (pick line f.shown.1) with
    | .raised e out => (.error e, out)
    | .shown x out =>
      match tell k t line fs with
      | (.ok xs, out') => (.ok ((f.name, pick line f.shown.1, x) :: xs), out ++ out')
      | (.error e, out') => (.error e, out ++ out')

/-- the rows of the table for these readings -/
def TableOf [PyUnicode] (xs : List (Str × Str × Reading)) (rows : List Row) : Prop :=
  rows.map (fun r => (r.field, r.value, (.ok r.decoded : Except Exc PyVal))) =
    xs.map (fun x => (x.1, py!"'" ++ x.2.1 ++ py!"'", x.2.2.value))

/-! ## Lines and files -/

/-- What `parse` does with a line: result, and what is printed. -/
inductive LineRun [PyUnicode] (output : Bool) (line : Str) : Except Exc Bool → List Event → Prop
  /-- a record is shown -/
  | shown {t k : Str} {fs : List StdField} {xs : List (Str × Str × Reading)} {out : List Event} {rows : List Row}
      (h : FateOf [] line (.record t k fs)) (ht : tell k t line fs = (.ok xs, out)) (hr : TableOf xs rows) :
      LineRun output line (.ok true) (out ++ if output then [.table rows] else [])
  /-- or cannot be shown -/
  | failed {t k : Str} {fs : List StdField} {e : Exc} {out : List Event}
      (h : FateOf [] line (.record t k fs)) (ht : tell k t line fs = (.error e, out)) :
      LineRun output line (.error e) out
  /-- any other line: as `read` -/
  | other {f : Fate} (h : FateOf [] line f) (hf : f.returns ≠ .ok true) : LineRun output line f.returns f.prints

/-- What `read_file` does with the lines of a file: result, and what is printed. -/
inductive FileRun [PyUnicode] (output : Bool) : List Str → Except Exc Unit → List Event → Prop
  /-- the end -/
  | done : FileRun output [] (.ok ()) []
  /-- the lines one after the other -/
  | line {l : Str} {ls : List Str} {b : Bool} {res : Except Exc Unit} {out out' : List Event}
      (h : LineRun output l (.ok b) out) (t : FileRun output ls res out') :
      FileRun output (l :: ls) res (out ++ out')
  /-- up to the first that raises an exception -/
  | stop {l : Str} {ls : List Str} {e : Exc} {out : List Event} (h : LineRun output l (.error e) out) :
      FileRun output (l :: ls) (.error e) out

/-- What `read_folder` does with the entries of a folder: result, and what is printed. -/
inductive FolderRun [PyUnicode] : List FileObj → Except Exc Unit → List Event → Prop
  /-- the end -/
  | done : FolderRun [] (.ok ()) []
  /-- the files one after the other, with output -/
  | file {s : Str} {ls : List Str} {fs : List FileObj} {res : Except Exc Unit} {out out' : List Event}
      (hs : Lines s ls) (h : FileRun true ls (.ok ()) out) (t : FolderRun fs res out') :
      FolderRun (.text s :: fs) res (out ++ out')
  /-- up to the first that raises an exception -/
  | stop {s : Str} {ls : List Str} {fs : List FileObj} {e : Exc} {out : List Event} (hs : Lines s ls)
      (h : FileRun true ls (.error e) out) : FolderRun (.text s :: fs) (.error e) out
  /-- or cannot be opened (folders, for instance) -/
  | unopenable {fs : List FileObj} : FolderRun (.unopenable :: fs) (.error .osError) []
  /-- or is not a text -/
  | undecodable {fs : List FileObj} : FolderRun (.undecodable :: fs) (.error .valueError) []

/-- no field of the line is a number written in an unusual way -/
def Usual [PyUnicode] (line : Str) : Prop :=
  ∀ (t k : Str) (fs : List StdField), IsLine [] line t k fs → ∀ f ∈ fs, ¬ Unusual f.shown.2 (pick line f.shown.1)

/-- What `search` does with the lines of a file, of which it has found `n` before: result, what is printed. -/
inductive SearchRun [PyUnicode] (filters : Filters) : Nat → List Str → Except Exc Unit → List Event → Prop
  /-- the summary at the end -/
  | done (n : Nat) : SearchRun filters n [] (.ok ()) [.summary n filters (n != 0)]
  /-- a record that contains what is looked for is printed and counted -/
  | found {n : Nat} {l : Str} {ls : List Str} {t k : Str} {fs : List StdField} {res : Except Exc Unit}
      {out : List Event} (h : FateOf [] l (.record t k fs)) (hm : Matches filters t)
      (r : SearchRun filters (n + 1) ls res out) : SearchRun filters n (l :: ls) res (.line t :: out)
  /-- other records are not -/
  | other {n : Nat} {l : Str} {ls : List Str} {t k : Str} {fs : List StdField} {res : Except Exc Unit}
      {out : List Event} (h : FateOf [] l (.record t k fs)) (hm : ¬ Matches filters t)
      (r : SearchRun filters n ls res out) : SearchRun filters n (l :: ls) res out
  /-- any other line is skipped, perhaps with a message -/
  | skip {n : Nat} {l : Str} {ls : List Str} {f : Fate} {res : Except Exc Unit} {out : List Event}
      (h : FateOf [] l f) (hf : f.returns = .ok false) (r : SearchRun filters n ls res out) :
      SearchRun filters n (l :: ls) res (f.prints ++ out)
  /-- but a refused record ends the search -/
  | stop {n : Nat} {l : Str} {ls : List Str} {t k : Str} (h : FateOf [] l (.refused t k)) :
      SearchRun filters n (l :: ls) (.error .valueError) []

/-! ## Histories -/

/-- `P h l x`: of the line `l`, read after the lines `h`, it can be said that `x`. `Last P h x`: `x` is what can
    be said of the last line of `h` of which something can be said; `none` if there is none. -/
inductive Last {α : Type} (P : List Str → Str → α → Prop) : List Str → Option α → Prop
  | none : Last P [] none
  | this {h : List Str} {l : Str} {x : α} (hx : P h l x) : Last P (h ++ [l]) (some x)
  | earlier {h : List Str} {l : Str} {x : Option α} (hn : ∀ y, ¬ P h l y) (hx : Last P h x) : Last P (h ++ [l]) x

/-- the line is the record `t` -/
def TextOf [PyUnicode] (_ : List Str) (line t : Str) : Prop := Padded line t ∧ IsRecord t

/-- it is a record of the supported section `k` -/
def SectionOf [PyUnicode] (_ : List Str) (line k : Str) : Prop := WellShaped line ∧ Resolves line k

/-- it is a record with the continuation number `c`, good or bad -/
def NumberOf [PyUnicode] (_ : List Str) (line c : Str) : Prop :=
  ∃ t k i, Padded line t ∧ IsRecord t ∧ Resolves line k ∧ contColumn k = some i ∧ c = col t i

/-- It is a record with the fields `fs`. Records of a type without fields have none; records that are refused and
    those with a bad continuation number do not count. -/
def FieldsOf [PyUnicode] (h : List Str) (line : Str) (fs : List Field) : Prop :=
  ∃ before t k, Last NumberOf h before ∧
    ((∃ gs, FateOf (before.getD []) line (.record t k gs) ∧
        fs = gs.map fun f => ⟨f.name, pick line f.shown.1, f.shown.2⟩) ∨
     (FateOf (before.getD []) line (.noFields t k) ∧ fs = []))

/-- a new object that has read these lines -/
def hasRead [PyUnicode] (h : List Str) : Record := h.foldl (fun r l => (r.read l).obj) Record.new

end Spec
