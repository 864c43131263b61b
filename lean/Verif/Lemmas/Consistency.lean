import Verif.Lemmas.File
import Verif.Lemmas.Json
import Verif.Lemmas.Parse
import Verif.Lemmas.Cont
import Verif.Spec.Consistency
/-! Helper lemmas: agreement between the ways of using the library. -/
namespace Arinc
open Py Spec
variable [PyUnicode]

/-- reading the same line again -/
theorem read_twice (r : Record) (line : Str) : (r.read line).obj.read line = r.read line := by
  rcases read_cases r line with ⟨_, h⟩ | ⟨hrec, hres, h⟩ | ⟨hrec, k, d, hres, hd, hf, h⟩
  · rw [h]; exact h
  · have hv := validate_iff_isRecord.2 hrec
    rw [h, read_eq, if_pos hv, hres]
  · have hv := validate_iff_isRecord.2 hrec
    have hread : ∀ r' : Record, r'.read line = r'.readAs line k d := by
      intro r'
      rw [read_eq, if_pos hv, hres]
      simp only [hd]
    rw [hread, hread]
    have he : ∀ fs, ({ r.enter line k d with fields := fs } : Record).enter line k d =
        { r.enter line k d with fields := fs } := by
      intro fs
      unfold Record.enter
      cases d.contIdx <;> rfl
    have he0 : (r.enter line k d).enter line k d = r.enter line k d := he r.fields
    by_cases hc : d.contIdx.isSome = true ∧ isAlnum (r.enter line k d).continuation = false
    · have h1 : r.readAs line k d =
          ⟨.ok false, r.enter line k d, contDiag (d.name.getD []) (r.enter line k d).continuation
            (r.enter line k d).raw⟩ := if_pos hc
      rw [h1]
      unfold Record.readAs
      simp only [he0]
      rw [if_pos hc]
    · have h1 : r.readAs line k d = (r.enter line k d).finish d line := if_neg hc
      rw [h1]
      have h2 : ∀ fs, ({ r.enter line k d with fields := fs } : Record).readAs line k d =
          ({ r.enter line k d with fields := fs } : Record).finish d line := by
        intro fs
        unfold Record.readAs
        simp only [he]
        rw [if_neg hc]
      have h3 : ∀ fs, ({ r.enter line k d with fields := fs } : Record).primary =
          (r.enter line k d).primary := fun fs => rfl
      cases hs : (d.branch (r.enter line k d).primary).select line with
      | error e =>
        have h4 : (r.enter line k d).finish d line = ⟨.error e, r.enter line k d, []⟩ := by
          unfold Record.finish; rw [hs]
        rw [h4]
        exact (h2 r.fields).trans h4
      | ok l =>
        have h4 : ∀ fs, ({ r.enter line k d with fields := fs } : Record).finish d line =
            ⟨.ok (!l.isEmpty), { r.enter line k d with fields := l.map (FieldSpec.field line) }, []⟩ := by
          intro fs
          unfold Record.finish; rw [h3, hs]
        have h5 := h4 r.fields
        rw [show (r.enter line k d).finish d line = _ from h5]
        simp only
        rw [h2, h4]

omit [PyUnicode] in
theorem noEOL_strip {l : Str} (h : NoEOL l) : NoEOL (strip l) := by
  obtain ⟨pre, post, e, _, _⟩ := padded_strip l
  intro c hc
  exact h c (by rw [e]; simp [hc])

open Classical in
theorem hits_strip {filters : Filters} {ls : List Str}
    (h : ∀ l ∈ ls, Hit filters l → NoLeadingSpace l) :
    hits filters ((hits filters ls).map strip) = (hits filters ls).map strip := by
  unfold hits
  rw [List.filter_eq_self]
  intro t ht
  obtain ⟨l, hl, rfl⟩ := List.mem_map.1 ht
  obtain ⟨hm, hh⟩ := List.mem_filter.1 hl
  have hh : Hit filters l := of_decide_eq_true hh
  refine decide_eq_true ?_
  refine ⟨?_, ?_⟩
  · rw [← read_strip (h l hm hh)]; exact hh.1
  · rw [strip_strip]; exact hh.2

omit [PyUnicode] in
theorem tables_append (a b : List Event) : tables (a ++ b) = tables a ++ tables b := by
  unfold tables; rw [List.filterMap_append]

omit [PyUnicode] in
theorem tables_none {out : List Event} (h : NoTable out) : tables out = [] := by
  unfold tables
  rw [List.filterMap_eq_nil_iff]
  intro e he
  cases e with
  | table rows => exact absurd he (h rows)
  | _ => rfl

/-- either nothing raises or there is a first line that does -/
theorem first_raise (output : Bool) (ls : List Str) :
    (∀ l ∈ ls, ∀ e, (parse l output legTypeDesc).res ≠ .error e) ∨
    ∃ pre l post e, ls = pre ++ l :: post ∧
      (∀ l ∈ pre, ∀ e, (parse l output legTypeDesc).res ≠ .error e) ∧
      (parse l output legTypeDesc).res = .error e := by
  induction ls with
  | nil => left; intro l hl; cases hl
  | cons a ls ih =>
    cases ha : (parse a output legTypeDesc).res with
    | error e => right; exact ⟨[], a, ls, e, rfl, by simp, ha⟩
    | ok b =>
      have ha' : ∀ e, (parse a output legTypeDesc).res ≠ .error e := by rw [ha]; intro e; simp
      rcases ih with h | ⟨pre, l, post, e, rfl, h1, h2⟩
      · left
        intro l hl
        rcases List.mem_cons.1 hl with rfl | hl
        · exact ha'
        · exact h l hl
      · right
        refine ⟨a :: pre, l, post, e, rfl, ?_, h2⟩
        intro x hx
        rcases List.mem_cons.1 hx with rfl | hx
        · exact ha'
        · exact h1 x hx

theorem parseLines_ok_iff {output : Bool} {ls : List Str} {legs : Legs} (hl : Grown legs)
    (h : (parseLines output ls legs).res = .ok ()) :
    ∀ l ∈ ls, ∀ e, (parse l output legTypeDesc).res ≠ .error e := by
  rcases first_raise output ls with h' | ⟨pre, l, post, e, rfl, h1, h2⟩
  · exact h'
  · rw [(parseLines_stop h1 h2 hl).1] at h; cases h

theorem read_noTable (r : Record) (line : Str) : NoTable (r.read line).out := by
  have nil : NoTable [] := fun rows => by simp
  rcases read_cases r line with ⟨_, h⟩ | ⟨_, _, h⟩ | ⟨_, k, d, _, _, _, h⟩
  · rw [h]; exact nil
  · rw [h]; exact nil
  · rw [h]
    unfold Record.readAs
    simp only
    split
    · intro rows; simp [contDiag]
    · rw [finish_out]; exact nil

/-- the table of an accepted line -/
theorem parse_table {l : Str} (h : ∀ e, (parse l true legTypeDesc).res ≠ .error e)
    (ha : (Record.new.read l).res = .ok true) : ∃ rows, tables (parse l true legTypeDesc).out = [rows] ∧
      ((Record.new.read l).obj.decode true legTypeDesc).res = .ok rows := by
  rcases parse_cases l true legTypeDesc with ⟨e, h1, h2, _⟩ | ⟨h1, h2⟩ | ⟨h1, h2, _, _, h3⟩
  · rw [h1] at ha; cases ha
  · rw [h1] at ha; cases ha
  · cases hd : ((Record.new.read l).obj.decode true legTypeDesc).res with
    | error e => exact absurd ((h2 e).1 hd) (h e)
    | ok rows =>
      refine ⟨rows, ?_, rfl⟩
      rw [h3, tables_append, tables_none (read_noTable _ _), List.nil_append]
      unfold Record.decode at hd ⊢
      simp only at hd ⊢
      cases hr : (decodeRows (Record.new.read l).obj.info (Record.new.read l).obj.fields legTypeDesc).res with
      | error e => rw [hr] at hd; cases hd
      | ok rows' =>
        rw [hr] at hd
        cases hd
        simp only [if_true]
        rw [tables_append, tables_none (decodeRows_noTable _ _ _)]
        rfl

theorem parse_noTable {l : Str} (ha : (Record.new.read l).res ≠ .ok true)
    (h : ∀ e, (parse l true legTypeDesc).res ≠ .error e) : tables (parse l true legTypeDesc).out = [] := by
  rcases parse_cases l true legTypeDesc with ⟨e, h1, h2, h3⟩ | ⟨h1, h2⟩ | ⟨h1, h2, _, _, h3⟩
  · exact absurd h2 (h e)
  · rw [h2]; exact tables_none (read_noTable _ _)
  · exact absurd h1 ha

theorem read_noRaise {l : Str} (h : ∀ e, (parse l true legTypeDesc).res ≠ .error e) (e : Exc) :
    (Record.new.read l).res ≠ .error e := by
  rcases parse_cases l true legTypeDesc with ⟨e', _, h2, _⟩ | ⟨h1, _⟩ | ⟨h1, _⟩
  · exact absurd h2 (h e')
  · rw [h1]; simp
  · rw [h1]; simp

theorem hits_mem {filters : Filters} {ls : List Str} {l : Str} (h : l ∈ hits filters ls) :
    l ∈ ls ∧ Hit filters l := by
  classical
  unfold hits at h
  obtain ⟨h1, h2⟩ := List.mem_filter.1 h
  exact ⟨h1, of_decide_eq_true h2⟩

theorem hits_cons_pos {filters : Filters} {ls : List Str} {l : Str} (h : Hit filters l) :
    hits filters (l :: ls) = l :: hits filters ls := by
  unfold hits; rw [List.filter_cons_of_pos (by simpa using h)]

theorem hits_cons_neg {filters : Filters} {ls : List Str} {l : Str} (h : ¬ Hit filters l) :
    hits filters (l :: ls) = hits filters ls := by
  unfold hits; rw [List.filter_cons_of_neg (by simpa using h)]

omit [PyUnicode] in
theorem printed_found (ls : List Str) (f : Str → Str) (n : Nat) (filters : Filters) (b : Bool) :
    printedLines (ls.map (fun l => Event.line (f l)) ++ [.summary n filters b]) = ls.map f := by
  unfold printedLines
  rw [List.filterMap_append, List.filterMap_map]
  simp [Function.comp_def]

end Arinc
