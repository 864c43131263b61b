import Verif.Spec.Fate
import Verif.Spec.Double
/-!
# Specification: what becomes of any field and any line whatsoever

`verdict` of `Spec/Fate.lean` is about ASCII characters and numbers written with digits. Here nothing is assumed:
characters of any script, and numbers written in any way that `int` and `float` accept (`Spec/Number.lean`).
-/
namespace Spec
open Py Arinc Spec.Std
variable [PyUnicode]

/-- `s` is a number for `float` and the result is made of it by `f`; or it is none, and `ValueError` is raised -/
def FloatThen (s : Str) (f : Dbl → PyVal → Prop) (res : Except Exc PyVal) : Prop :=
  (∃ x p, FloatText s x ∧ f x p ∧ res = .ok p) ∨ (¬ IsFloat s ∧ res = .error .valueError)

/-- the number divided by `d`, as a text with the given decimals and unit -/
def QuotientText (d places : Nat) (unit : Str) (x : Dbl) (p : PyVal) : Prop :=
  ∃ y s, QuotientOf d x y ∧ FixedText places y s ∧ p = .str (s ++ unit)

/-- the number divided by `d` -/
def QuotientFloat (d : Nat) (x : Dbl) (p : PyVal) : Prop := ∃ y, QuotientOf d x y ∧ p = .float y

/-- the same for `int` -/
def IntThen (s : Str) (f : Int → PyVal) (res : Except Exc PyVal) : Prop :=
  (∃ i, IntText s i ∧ res = .ok (f i)) ∨ (¬ IsInt s ∧ res = .error .valueError)

/-- a result, or `ValueError` unless the condition holds -/
def okIf (b : Bool) (x : PyVal) : Except Exc PyVal := if b then .ok x else .error .valueError

/-- at least three characters, a minus sign included: `{:03}` -/
def threeDigits (i : Int) : Str :=
  if i < 0 then py!"-" ++ (List.replicate (2 - (decimal i.natAbs).length) 48 ++ decimal i.natAbs)
  else List.replicate (3 - (decimal i.natAbs).length) 48 ++ decimal i.natAbs

/-- the first of the two columns of a leg time that is not a digit -/
def legError : Str → LegErr
  | [] => .tooShort
  | [a] => if (PyUnicode.decimal a).isSome then .tooShort else .notInt [a]
  | a :: b :: _ => if (PyUnicode.decimal a).isSome then .notInt [b] else .notInt [a]

/-- The result of a field of one of the types that do not print. -/
def Result (fn : DecFn) (v : Str) (res : Except Exc PyVal) : Prop :=
  match fn with
  | .f008 => res = okIf (isAlnum (strip v)) (.str v)                   -- 5.8 route identifier
  | .f009 => res = .ok (if isAlnum (strip v) then .str v else .none)   -- 5.9 SID/STAR identifier
  | .f021 => res = if blank v then .ok (.str [])                       -- 5.21 path terminator
      else okIf (isAlpha (strip v)) (match pathTerminators.lookup (strip v) with
        | some d => .str d
        | none => .str (py!"<UNKNOWN>"))
  | .f022 => res = okIf (blank v || isAlpha (strip v)) (.str (strip v))
  | .f023 | .f024 | .f025 =>                                           -- 5.23 - 5.25 navaid, theta, rho
    res = okIf (blank v || (isAlnum (strip v) && (strip v).length ≤ 4)) (.str (strip v))
  | .f026 => if blank v then res = .ok (.str [])                       -- 5.26 course
    else if isAlnum (strip v) && (strip v).length ≤ 4 then
      if (strip v).getLast? = some 84 then res = .ok (.str (strip v))
      else FloatThen (strip v) (QuotientText 10 1 []) res
    else res = .error .valueError
  | .f027 => if blank v then res = .ok (.str [])                       -- 5.27 distance or time
    else match strip v with
      | 84 :: w => FloatThen w (QuotientText 10 1 (py!" min")) res
      | w => FloatThen w (QuotientText 10 1 (py!" nm")) res
  | .f029 | .f030 | .f048 | .f050 | .f053 | .f073 | .f086 | .f092 | .f123 | .f127 | .f147 | .f161 | .f184 |
    .f209 | .f240 => res = .ok (.str (if isNumeric v then v.dropWhile (· = 48) ++ py!" ft" else v))
  | .f054 => res = .ok (.str (if isNumeric v then v.dropWhile (· = 48) ++ py!"00 ft" else v))
  | .f032 => IntThen (v.take 2) (fun y =>                              -- 5.32 cycle date
      .str ((if y > 50 then py!"19" else py!"20") ++ v.take 2 ++ py!", Release " ++ v.drop 2)) res
  | .f039 => if blank v then res = .ok (.str v)                        -- 5.39 magnetic variation
    else IntThen (v.drop 1) (fun i => .str (threeDigits i ++ py!" " ++ v.take 1)) res
  | .f045 | .f103 => if isNumeric v then FloatThen v (QuotientText 100 2 []) res
    else res = .ok (.str (py!"BAD VALUE"))
  | .f062 | .f135 => if isNumeric v then FloatThen v (QuotientFloat 10) res
    else res = .ok (.str (py!"BAD VALUE"))
  | .f072 => res = if isNumeric v then .ok (.str (v ++ py!" knots (IAS)")) else okIf (blank v) (.str v)
  | .f178 => match v with                                              -- 5.178 time zone
    | c :: w => if isAlpha [c] && isNumeric w then
        if 77 ≤ c ∧ c ≤ 90 then res = .ok (.str (py!"GMT +" ++ decimal (c - 77) ++ py!":" ++ w))
        else if 65 ≤ c ∧ c ≤ 76 then res = .ok (.str (py!"GMT --" ++ decimal (77 - c) ++ py!":" ++ w))
        else res = .error .valueError
      else res = .ok (.str (py!"Unsupported Value: \"" ++ v ++ py!"\""))
    | [] => False
  | .f269 => if blank v then res = .ok (.str v) else FloatThen v (QuotientFloat 10) res
  | _ => False

/-- Result and messages of a field of type `fn` with the raw value `v` in the record `t` of section `k`. -/
def Gives (k t : Str) (fn : DecFn) (v : Str) (res : Except Exc PyVal) (out : List Event) : Prop :=
  match fn with
  | .f034 => if blank v then res = .ok (.str []) ∧ out = []            -- 5.34 VOR/NDB frequency
    else if isNumeric (strip v) then FloatThen (strip v) (QuotientText 100 2 []) res ∧ out = []
    else res = .error .systemExit ∧ out =
      [.line (py!"Unsupported VOR/NDB Frequency: \"" ++ strip v ++ py!"\""),
       .line (py!"from record type \"" ++ k ++ py!"\": \"" ++ t ++ py!"\"")]
  | .f065 => if blank v then res = .ok .none ∧ out = []                -- 5.65 leg time
    else (∃ a b rest m s, v = a :: b :: rest ∧ PyUnicode.decimal a = some m ∧ PyUnicode.decimal b = some s ∧
        res = .ok (.str (decimal m ++ py!"m " ++ decimal (6 * s) ++ py!"s")) ∧ out = []) ∨
      ((¬ ∃ a b rest, v = a :: b :: rest ∧ IsDec a ∧ IsDec b) ∧
        res = .ok (.str (py!"Invalid Value: \"" ++ v ++ py!"\"")) ∧ out = [.legTime v (legError v)])
  | fn => if classed fn then Result fn v res ∧ out = []
    else match verdict k t fn v with
      | .shown x messages => res = x.value ∧ out = messages
      | .raised e messages => res = .error e ∧ out = messages

/-- The fields of a record one after the other: rows of the table, or the exception raised by the first that
    raises one; and the messages up to there. -/
inductive Tells (k t line : Str) : List StdField → Except Exc (List Row) → List Event → Prop
  | nil : Tells k t line [] (.ok []) []
  | raised {f : StdField} {fs : List StdField} {e : Exc} {out : List Event}
      (h : Gives k t f.shown.2 (pick line f.shown.1) (.error e) out) : Tells k t line (f :: fs) (.error e) out
  | shown {f : StdField} {fs : List StdField} {x : PyVal} {rows : List Row} {out out' : List Event}
      (h : Gives k t f.shown.2 (pick line f.shown.1) (.ok x) out) (r : Tells k t line fs (.ok rows) out') :
      Tells k t line (f :: fs) (.ok (⟨f.name, py!"'" ++ pick line f.shown.1 ++ py!"'", x⟩ :: rows)) (out ++ out')
  | later {f : StdField} {fs : List StdField} {x : PyVal} {e : Exc} {out out' : List Event}
      (h : Gives k t f.shown.2 (pick line f.shown.1) (.ok x) out) (r : Tells k t line fs (.error e) out') :
      Tells k t line (f :: fs) (.error e) (out ++ out')

/-- What `parse` does with any line: result, and what is printed. -/
inductive LineDoes (output : Bool) (line : Str) : Except Exc Bool → List Event → Prop
  /-- a record is shown -/
  | shown {t k : Str} {fs : List StdField} {rows : List Row} {out : List Event}
      (h : FateOf [] line (.record t k fs)) (ht : Tells k t line fs (.ok rows) out) :
      LineDoes output line (.ok true) (out ++ if output then [.table rows] else [])
  /-- or cannot be shown -/
  | failed {t k : Str} {fs : List StdField} {e : Exc} {out : List Event}
      (h : FateOf [] line (.record t k fs)) (ht : Tells k t line fs (.error e) out) :
      LineDoes output line (.error e) out
  /-- any other line: as `read` -/
  | other {f : Fate} (h : FateOf [] line f) (hf : f.returns ≠ .ok true) : LineDoes output line f.returns f.prints

/-- What `read_file` does with any lines. -/
inductive FileDoes (output : Bool) : List Str → Except Exc Unit → List Event → Prop
  /-- the end -/
  | done : FileDoes output [] (.ok ()) []
  /-- the lines one after the other -/
  | line {l : Str} {ls : List Str} {b : Bool} {res : Except Exc Unit} {out out' : List Event}
      (h : LineDoes output l (.ok b) out) (t : FileDoes output ls res out') :
      FileDoes output (l :: ls) res (out ++ out')
  /-- up to the first that raises an exception -/
  | stop {l : Str} {ls : List Str} {e : Exc} {out : List Event} (h : LineDoes output l (.error e) out) :
      FileDoes output (l :: ls) (.error e) out

/-- What `read_folder` does with any entries of a folder. -/
inductive FolderDoes : List FileObj → Except Exc Unit → List Event → Prop
  /-- the end -/
  | done : FolderDoes [] (.ok ()) []
  /-- the files one after the other, with output -/
  | file {s : Str} {ls : List Str} {fs : List FileObj} {res : Except Exc Unit} {out out' : List Event}
      (hs : Lines s ls) (h : FileDoes true ls (.ok ()) out) (t : FolderDoes fs res out') :
      FolderDoes (.text s :: fs) res (out ++ out')
  /-- up to the first that raises an exception -/
  | stop {s : Str} {ls : List Str} {fs : List FileObj} {e : Exc} {out : List Event} (hs : Lines s ls)
      (h : FileDoes true ls (.error e) out) : FolderDoes (.text s :: fs) (.error e) out
  /-- or cannot be opened (folders, for instance) -/
  | unopenable {fs : List FileObj} : FolderDoes (.unopenable :: fs) (.error .osError) []
  /-- or is not a text -/
  | undecodable {fs : List FileObj} : FolderDoes (.undecodable :: fs) (.error .valueError) []

end Spec
