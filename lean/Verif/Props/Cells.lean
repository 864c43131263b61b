import Verif.Model.Cells
import Verif.Lemmas.Repr
import Verif.Spec.Cells
import Verif.Props.Fates
/-!
# C84: what stands in the cells of the table
-/
namespace Arinc
open Py Spec Spec.Std

section
variable [PyUnicode]

/-- C84: in the fields whose value is a `float`, a number of up to 15 digits is shown with exactly one decimal: all
digits of the raw value but leading zeros, with a point before the last. -/
theorem C84_tenths {fn : DecFn} (hf : fn ∈ [DecFn.f062, .f135, .f269]) {v : Str} {n : Nat} (hv : Numeral v n)
    (hl : v.length ≤ 15) (rec : RecInfo) (legs : Legs) :
    ∃ y s, (runDec fn v rec legs).res = .ok y ∧ y.text = some s ∧ Fixed 1 s n := by
  have h := reads_tenths hf hv hl rec legs
  rw [h, value_tenths]
  obtain ⟨s, h1, h2⟩ := repr_tenths (n := n) (Nat.lt_of_lt_of_le (numeral_lt hv hl) (by decide))
  exact ⟨_, s, rfl, h1, h2⟩

omit [PyUnicode] in
theorem meaning_tenths {k : Str} {fn : DecFn} {v : Str} {n : Nat} (h : meaning k fn v = some (.tenths n)) :
    n < 10 ^ 15 := by
  have hnum : ∀ {w : Str} {m : Nat}, number w = some m → w.length ≤ 15 → m < 10 ^ 15 :=
    fun hm hl => Nat.lt_of_lt_of_le (numeral_lt (number_some hm) hl) (by decide)
  unfold meaning at h
  split at h
  · next t ht =>
    unfold meaningCode at h
    split at h
    · cases h
    · split at h
      · cases h
      · split at h <;> cases h
  · cases fn
    case f062 | f135 =>
      simp only [meaningOther] at h
      split at h
      · next m hm =>
        split at h
        · next hl => cases h; exact hnum hm hl
        · cases h
      · cases h
    case f269 =>
      simp only [meaningOther] at h
      split at h
      · cases h
      · split at h
        · next hl =>
          cases hm : number v with
          | none => rw [hm] at h; cases h
          | some m => rw [hm] at h; cases h; exact hnum hm hl
        · cases h
    all_goals
      simp only [meaningOther, meaningFeet, meaningTwo] at h
      repeat' split at h
      all_goals
        first
        | (cases h; done)
        | (simp at h; done)
        | (simp only [Option.map_eq_some_iff, Option.bind_eq_some_iff] at h
           obtain ⟨_, _, _, _, h⟩ := h
           cases h
           done)

/-- C84: whatever a value means, this is the text in its cell. -/
theorem C84_cell {k : Str} {fn : DecFn} {v : Str} {x : Reading} (h : meaning k fn v = some x) :
    ∃ y, x.value = .ok y ∧ y.text = some x.cell := by
  cases x with
  | text s => exact ⟨_, rfl, rfl⟩
  | nothing => exact ⟨_, rfl, rfl⟩
  | tenths n =>
    obtain ⟨s, h1, h2⟩ := repr_tenths (meaning_tenths h)
    refine ⟨_, value_tenths, ?_⟩
    show (roundDbl false n 10).repr = _
    rw [h1, fixed_unique h2 (fixed_fixed (by omega))]
    rfl

theorem tell_cells {k t line : Str} {fs : List StdField} {xs : List (Str × Str × Reading)} {out : List Event}
    (h : tell k t line fs = (.ok xs, out)) : ∀ x ∈ xs, ∃ y, x.2.2.value = .ok y ∧ y.text = some x.2.2.cell := by
  induction fs generalizing xs out with
  | nil => cases h; intro x hx; cases hx
  | cons f fs ih =>
    unfold tell at h
    split at h
    · cases h
    · next x o hv =>
      split at h
      · next xs' o' ht =>
        cases h
        intro z hz
        rcases List.mem_cons.1 hz with rfl | hz
        · unfold verdict at hv
          split at hv
          · next hm => cases hv; exact C84_cell hm
          · split at hv <;> cases hv <;> exact ⟨_, rfl, rfl⟩
        · exact ih ht z hz
      · cases h

/-- C84: the cells of the table of a record. -/
theorem C84_table {k t line : Str} {fs : List StdField} {xs : List (Str × Str × Reading)} {out : List Event}
    (h : tell k t line fs = (.ok xs, out)) {rows : List Row} (hr : TableOf xs rows) :
    rows.map Row.cells = (tableText xs).map some := by
  have hc := tell_cells h
  clear h
  unfold TableOf at hr
  induction xs generalizing rows with
  | nil => cases rows with
    | nil => rfl
    | cons r rows => cases hr
  | cons x xs ih => cases rows with
    | nil => cases hr
    | cons r rows =>
      simp only [List.map_cons, List.cons.injEq, Prod.mk.injEq] at hr
      obtain ⟨⟨h1, h2, h3⟩, h4⟩ := hr
      obtain ⟨y, hy, ht⟩ := hc x (by simp)
      rw [hy] at h3
      have h3 : r.decoded = y := by injection h3
      simp only [tableText, List.map_cons] at ih ⊢
      rw [ih h4 (fun z hz => hc z (by simp [hz]))]
      unfold Row.cells
      rw [h3, ht, h1, h2]
      rfl

/-- C84: from the text of a line to the texts in the table that `parse` prints. -/
theorem C84_parse {line : Str} (ha : Ascii line) (hu : Usual line) {legs : Legs} (hl : Grown legs)
    {t k : Str} {fs : List StdField} (hf : FateOf [] line (.record t k fs))
    {xs : List (Str × Str × Reading)} {out : List Event} (ht : tell k t line fs = (.ok xs, out)) :
    ∃ rows, parse line true legs = ⟨.ok true, out ++ [.table rows], (parse line true legs).legs⟩ ∧
      rows.map Row.cells = (tableText xs).map some := by
  obtain ⟨rows, hr⟩ : ∃ rows, TableOf xs rows := by
    have hc := tell_cells ht
    clear ht
    induction xs with
    | nil => exact ⟨[], rfl⟩
    | cons x xs ih =>
      obtain ⟨rows, hr⟩ := ih (fun z hz => hc z (by simp [hz]))
      obtain ⟨y, hy, _⟩ := hc x (by simp)
      exact ⟨⟨x.1, py!"'" ++ x.2.1 ++ py!"'", y⟩ :: rows, by
        unfold TableOf at hr ⊢
        simp only [List.map_cons, hr, hy]⟩
  obtain ⟨h1, h2⟩ := (C79_parse ha hu true hl _ _).2 (.shown hf ht hr)
  refine ⟨rows, ?_, C84_table ht hr⟩
  rw [if_pos rfl] at h2
  rw [← h1, ← h2]

end

section
attribute [local instance] Py.Tables.cpython311

-- the double nearest to 12.3 is not 12.3, but is shown as such
example : (roundDbl false 123 10).repr = some (py!"12.3") ∧ (roundDbl false 123 10).fmt 20 ≠ py!"12.30000000000000000000" := by
  decide +kernel
example : Numeral (py!"0525") 525 ∧ (runDec .f269 (py!"0525") ⟨[], []⟩ []).res = .ok (.float (roundDbl false 525 10)) ∧
    (PyVal.float (roundDbl false 525 10)).text = some (py!"52.5") := by
  refine ⟨⟨?_, ?_, ?_⟩, ?_, ?_⟩ <;> decide +kernel
example : meaning (py!"EP") .f062 (py!"1300") = some (.tenths 1300) ∧ (Reading.tenths 1300).cell = py!"130.0" := by
  decide +kernel

/-- what `parse` shows of a holding pattern, and of a cruising table -/
example : (match (parse Sample.holding true legTypeDesc).out with
    | [.table rows] => rows.any fun r => r.cells = some [py!"Inbound Holding Course", py!"'1300'", py!"130.0"]
    | _ => false) = true ∧
    (match (parse Sample.cruise true legTypeDesc).out with
    | [.table rows] => rows.any fun r => r.cells = some [py!"Course To", py!"'1790'", py!"179.0"]
    | _ => false) = true := by decide +kernel

-- C84_parse (hypotheses are met)
example : Ascii Sample.airport ∧ Usual Sample.airport ∧
    FateOf [] Sample.airport (.record Sample.airport (py!"PA") (fieldsOf (py!"PA") true (py!"1"))) ∧
    ∃ xs, tell (py!"PA") Sample.airport Sample.airport (fieldsOf (py!"PA") true (py!"1")) = (.ok xs, []) := by
  refine ⟨by unfold Ascii; decide +kernel, airport_usual, airport_fate, ?_⟩
  have h : (tell (py!"PA") Sample.airport Sample.airport (fieldsOf (py!"PA") true (py!"1"))).2 = [] ∧
      (tell (py!"PA") Sample.airport Sample.airport (fieldsOf (py!"PA") true (py!"1"))).1.toBool = true := by
    decide +kernel
  cases ht : tell (py!"PA") Sample.airport Sample.airport (fieldsOf (py!"PA") true (py!"1")) with
  | mk res out =>
    rw [ht] at h
    cases res with
    | error e => exact absurd h.2 (by simp [Except.toBool])
    | ok xs => cases h.1; exact ⟨xs, rfl⟩

end
end Arinc
