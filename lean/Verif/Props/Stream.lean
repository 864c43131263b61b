import Verif.Spec.Stream
import Verif.Lemmas.Stream
import Verif.Props.Bytes
/-!
# C94: it does not matter how a file is delivered
-/
namespace Arinc
open Py Spec Spec.Std

section
variable [PyUnicode]

theorem readFileFrom_pieces (cs : List (List ℕ)) (output : Bool) (legs : Legs) :
    readFileFrom (.pieces cs) output legs = readFileAt (.bytes cs.flatten) output legs := by
  simp only [readFileFrom, readFileAt, readFile, readlines_pieces]
  cases (Disk.bytes cs.flatten).file.readlines <;> rfl

theorem searchFrom_pieces (cs : List (List ℕ)) (filters : Filters) :
    searchFrom (.pieces cs) filters = searchAt (.bytes cs.flatten) filters := by
  simp only [searchFrom, searchAt, search, readlines_pieces]
  cases (Disk.bytes cs.flatten).file.readlines <;> rfl

/-- C94: the same bytes in other pieces, also if a character of several bytes, a CR LF or a line is divided between
    them, give the same lines or the same error, in `read_file` and in `search`. -/
theorem C94_same {cs cs' : List (List ℕ)} (h : cs.flatten = cs'.flatten) (output : Bool) (legs : Legs)
    (filters : Filters) :
    (Source.pieces cs).readlines = (Source.pieces cs').readlines ∧
    readFileFrom (.pieces cs) output legs = readFileFrom (.pieces cs') output legs ∧
    searchFrom (.pieces cs) filters = searchFrom (.pieces cs') filters := by
  rw [readFileFrom_pieces, readFileFrom_pieces, searchFrom_pieces, searchFrom_pieces, readlines_pieces,
    readlines_pieces, h]
  exact ⟨rfl, rfl, rfl⟩

omit [PyUnicode] in
theorem broken_cases (cs : List (List ℕ)) :
    ((Source.broken cs).readlines = .error .osError ∧ ∃ t, ¬ NotUtf8 (cs.flatten ++ t)) ∨
    ((Source.broken cs).readlines = .error .valueError ∧ ∀ t, NotUtf8 (cs.flatten ++ t)) := by
  rcases readlines_broken cs with ⟨h, t, ht⟩ | ⟨h, ht⟩
  · refine .inl ⟨h, t, fun hn => ?_⟩
    cases hd : utf8Decode (cs.flatten ++ t) with
    | none => exact ht hd
    | some s => exact hn s (utf8_iff.1 hd)
  · refine .inr ⟨h, fun t s hs => ?_⟩
    have := ht t
    rw [utf8_complete hs] at this
    cases this

/-- C94: what `read_file` does with a file that is delivered in pieces, whole or not. -/
theorem C94_read_file (s : Source) (output : Bool) {legs : Legs} (hl : Grown legs) (res : Except Exc Unit)
    (out : List Event) :
    ((readFileFrom s output legs).res = res ∧ (readFileFrom s output legs).out = out) ↔ SourceDoes output s res out := by
  cases s with
  | pieces cs =>
    rw [readFileFrom_pieces, C89_read_file _ output hl]
    refine ⟨.whole, fun h => ?_⟩
    cases h with
    | whole h => exact h
  | unopenable =>
    refine ⟨fun ⟨h1, h2⟩ => h1 ▸ h2 ▸ .unopenable, fun h => ?_⟩
    cases h
    exact ⟨rfl, rfl⟩
  | broken cs =>
    rcases broken_cases cs with ⟨h, ht⟩ | ⟨h, ht⟩
    · simp only [readFileFrom, h]
      refine ⟨fun ⟨h1, h2⟩ => h1 ▸ h2 ▸ .broken ht, fun h => ?_⟩
      cases h with
      | broken _ => exact ⟨rfl, rfl⟩
      | hopeless h => obtain ⟨t, ht⟩ := ht; exact absurd (h t) ht
    · simp only [readFileFrom, h]
      refine ⟨fun ⟨h1, h2⟩ => h1 ▸ h2 ▸ .hopeless ht, fun h => ?_⟩
      cases h with
      | broken h => obtain ⟨t, h⟩ := h; exact absurd (ht t) h
      | hopeless _ => exact ⟨rfl, rfl⟩

/-- C94: what `search` does with it. -/
theorem C94_search (s : Source) (filters : Filters) (res : Except Exc Unit) (out : List Event) :
    searchFrom s filters = (res, out) ↔ SourceSearch filters s res out := by
  cases s with
  | pieces cs =>
    rw [searchFrom_pieces, C89_search]
    refine ⟨.whole, fun h => ?_⟩
    cases h with
    | whole h => exact h
  | unopenable =>
    refine ⟨fun h => ?_, fun h => ?_⟩
    · cases h; exact .unopenable
    · cases h; rfl
  | broken cs =>
    rcases broken_cases cs with ⟨h, ht⟩ | ⟨h, ht⟩
    · simp only [searchFrom, h]
      refine ⟨fun h => ?_, fun h => ?_⟩
      · cases h; exact .broken ht
      · cases h with
        | broken _ => rfl
        | hopeless h => obtain ⟨t, ht⟩ := ht; exact absurd (h t) ht
    · simp only [searchFrom, h]
      refine ⟨fun h => ?_, fun h => ?_⟩
      · cases h; exact .hopeless ht
      · cases h with
        | broken h => obtain ⟨t, h⟩ := h; exact absurd (ht t) h
        | hopeless _ => rfl

theorem readFileFrom_legs (s : Source) (output : Bool) {legs : Legs} (hl : Grown legs) :
    Grown (readFileFrom s output legs).legs := by
  unfold readFileFrom
  cases s.readlines with
  | error e => exact hl
  | ok ls => exact (parseLines_legs output ls hl).2.2

/-- C94: what `read_folder` does with such files. -/
theorem C94_read_folder (ss : List Source) {legs : Legs} (hl : Grown legs) (res : Except Exc Unit) (out : List Event) :
    ((readFilesFrom ss legs).res = res ∧ (readFilesFrom ss legs).out = out) ↔ SourcesDo ss res out := by
  induction ss generalizing legs res out with
  | nil =>
    refine ⟨fun ⟨h1, h2⟩ => h1 ▸ h2 ▸ .done, fun h => ?_⟩
    cases h
    exact ⟨rfl, rfl⟩
  | cons s ss ih =>
    have hs := C94_read_file s true hl
    have hg := readFileFrom_legs s true hl
    simp only [readFilesFrom]
    cases hr : (readFileFrom s true legs).res with
    | error e =>
      have h1 := (hs (.error e) _).1 ⟨hr, rfl⟩
      refine ⟨fun ⟨h2, h3⟩ => h2 ▸ h3 ▸ .stop h1, fun h => ?_⟩
      cases h with
      | file g _ =>
        have := ((hs _ _).2 g).1
        rw [hr] at this; cases this
      | stop g =>
        obtain ⟨g1, g2⟩ := (hs _ _).2 g
        rw [hr] at g1
        exact ⟨g1, g2⟩
    | ok u =>
      have h1 := (hs (.ok ()) _).1 ⟨hr, rfl⟩
      have i := ih hg
      refine ⟨fun ⟨h2, h3⟩ => h3 ▸ .file h1 ((i _ _).1 ⟨h2, rfl⟩), fun h => ?_⟩
      cases h with
      | file g t =>
        obtain ⟨_, g2⟩ := (hs _ _).2 g
        obtain ⟨t1, t2⟩ := (i _ _).2 t
        exact ⟨t1, by rw [g2, t2]⟩
      | stop g =>
        have := ((hs _ _).2 g).1
        rw [hr] at this; cases this

end

/-! ## Examples -/

section
attribute [local instance] Py.Tables.cpython311

/-- `é`, CR LF and a line are divided -/
example : (Source.pieces [[65, 0xC3], [0xA9, 13], [10, 66], [67]]).readlines = .ok [[65, 233, 10], [66, 67]] ∧
    (Source.pieces [[65, 0xC3, 0xA9, 13, 10, 66, 67]]).readlines = .ok [[65, 233, 10], [66, 67]] := by decide +kernel

/-- two CRs one after the other, and one at the end -/
example : (Source.pieces [[65, 13], [13], [], [66, 13]]).readlines = .ok [[65, 10], [10], [66, 10]] := by decide +kernel

/-- an incomplete character at the end of the file, or one that cannot be completed -/
example : (Source.pieces [[65], [0xE2, 0x82]]).readlines = .error .valueError ∧
    (Source.broken [[65], [0xE2, 0x82]]).readlines = .error .osError ∧
    (Source.broken [[65], [0xE0, 0x82]]).readlines = .error .valueError := by decide +kernel

/-- a record in two pieces is shown; if the rest of the file cannot be read, nothing is -/
example : (searchFrom (.pieces [Sample.airport.take 50, Sample.airport.drop 50]) (.str (py!"KSEA"))).2 =
      [.line Sample.airport, .summary 1 (.str (py!"KSEA")) true] ∧
    searchFrom (.broken [Sample.airport ++ [10]]) (.str (py!"KSEA")) = (.error .osError, []) := by decide +kernel

end

end Arinc
