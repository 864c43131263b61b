import Verif.Spec.Meaning
import Verif.Lemmas.Standard
import Verif.Lemmas.Cont
/-! Helper lemmas: which lines are accepted. -/
namespace Arinc
open Py Spec Spec.Std

theorem select_of_layoutOf {k : Str} {d : Definition} (h : registry.lookup k = some d) {p : Bool}
    {line : Str} (hne : layoutOf k p (pick line (appColumns k)) ≠ []) :
    (d.branch p).select line = .ok (layoutOf k p (pick line (appColumns k))) := by
  cases hs : (d.branch p).select line with
  | ok l => rw [select_layoutOf h hs]
  | error e =>
    refine absurd ?_ hne
    have hk := layouts_of h
    simp only [layoutsOK, Bool.and_eq_true] at hk
    have hsel : selIs k (d.branch p) = true := by
      unfold Definition.branch; cases p
      · exact hk.1.2
      · exact hk.1.1
    unfold layoutOf
    simp only [h]
    cases hb : d.branch p with
    | always l' => rw [hb] at hs; cases hs
    | onApp sel cases other =>
      rw [hb] at hs hsel
      simp only [selIs, decide_eq_true_eq] at hsel
      simp only [Branch.select, hsel] at hs
      cases hc : cases.lookup (pick line (appColumns k)) with
      | some l' => simp only [hc] at hs; cases hs
      | none =>
        simp only [hc] at hs ⊢
        cases other with
        | empty => rfl
        | raise => rfl
        | layout l' => cases hs

theorem usedOf_shown (f : StdField) : usedOf f = f.shown := by
  unfold usedOf StdField.shown
  cases f.used <;> rfl

variable [PyUnicode]

omit [PyUnicode] in
theorem enter_isPrimary {r : Record} {line t k : Str} {d : Definition} (hf : EntryFacts k d)
    (hs : strip line = t) : (r.enter line k d).primary = isPrimary r.continuation t k := by
  unfold isPrimary
  rw [Bool.eq_iff_iff]
  cases hc : contColumn k with
  | some i =>
    rw [enter_primary (by rw [hf.cont, hc]), hs]
    simp [PrimaryNo]
  | none =>
    rw [enter_primary_none (by rw [hf.cont, hc])]
    simp [PrimaryNo]

theorem isLine_read {r : Record} {line t k : Str} {fs : List StdField}
    (h : IsLine r.continuation line t k fs) : ∃ d, r.read line = ⟨.ok true, { r.enter line k d with
      fields := fs.map fun f => ⟨f.name, pick line f.shown.1, f.shown.2⟩ }, []⟩ ∧ EntryFacts k d ∧
      strip line = t := by
  obtain ⟨d, hd, hf, hs, _, hr⟩ := read_section h.padded h.shape h.section_ r
  refine ⟨d, ?_, hf, hs⟩
  have hag := agree_lookup hd (isPrimary r.continuation t k) (pick line (appColumns k))
  have hne : layoutOf k (isPrimary r.continuation t k) (pick line (appColumns k)) ≠ [] := fun h0 =>
    h.listed (by rw [h.fields]; exact (agree_nil hag).1 h0)
  rw [hr]
  unfold Record.readAs
  have hc : ¬ (d.contIdx.isSome = true ∧ isAlnum (r.enter line k d).continuation = false) := by
    rintro ⟨h1, h2⟩
    obtain ⟨i, hi⟩ := Option.isSome_iff_exists.1 h1
    rw [enter_cont hi, hs, h.continuation i (by rw [← hf.cont, hi])] at h2
    cases h2
  simp only [hc, if_false]
  unfold Record.finish
  rw [enter_isPrimary hf hs, select_of_layoutOf hd hne]
  simp only
  rw [agree_map hag, ← h.fields]
  have : (!(layoutOf k (isPrimary r.continuation t k) (pick line (appColumns k))).isEmpty) = true := by
    cases hl : layoutOf k (isPrimary r.continuation t k) (pick line (appColumns k)) with
    | nil => exact absurd hl hne
    | cons _ _ => rfl
  rw [this]
  simp only [usedOf_shown]

theorem read_isLine {r : Record} {line : Str} (h : (r.read line).res = .ok true) :
    ∃ (t k : Str) (fs : List StdField), IsLine r.continuation line t k fs := by
  obtain ⟨k, d, l, ha⟩ := accepted h
  refine ⟨strip line, k, _, padded_strip line, ha.isRec, resolve_iff.1 ha.res, ?_, rfl, ?_⟩
  · intro i hi
    exact ha.contOK i (by rw [ha.facts.cont, hi])
  · have hl := select_layoutOf ha.lookup ha.select
    rw [enter_isPrimary ha.facts rfl] at hl
    rw [Ne, ← agree_nil (agree_lookup ha.lookup _ _), ← hl]
    exact ha.ne

end Arinc
