import Verif.Lemmas.SourceCalls
import Verif.Spec.SourceSession
import Verif.Props.SourceRecord
/-!
# C122: the source of `parse`, `read_file`, `read_folder`, `search`
-/
namespace Arinc.Lang
open Py

section
variable [PyUnicode]

theorem noneRes_stuck (r : Except Fault Unit) : Spec.noneRes r ≠ .error .stuck := by cases r <;> simp [Spec.noneRes]

theorem boolRes_stuck (r : Except Fault Bool) : Spec.boolRes r ≠ .error .stuck := by cases r <;> simp [Spec.boolRes]

/-- one call -/
theorem api_call (sc : Screen) (n : Nat) (c : Spec.ApiCall) (legs : Legs) (st : St)
    (hf : st.frozen = false) (hg : find st.globals (py!"records") = some Spec.recordsVal)
    (hl : find st.globals (py!"LegTypeDesc") = some (Spec.legsVal legs)) :
    ∃ texts, (c.model sc legs).2.1.mapM (Event.text sc) = some texts ∧ (c.model sc legs).1 ≠ .error .stuck ∧
      (Src.library.env sc (n + 8)).call c.source.1 c.source.2 st =
        ((c.model sc legs).1, Spec.stAfter st (c.model sc legs).2.2 texts) := by
  cases c with
  | parse line o =>
    cases o with
    | none =>
      obtain ⟨ts, h1, h2⟩ := call_parse sc (n + 2) st hf hg legs hl line (.bool true) [] (.inr ⟨rfl, rfl⟩)
      exact ⟨ts, h1, boolRes_stuck _, h2⟩
    | some o =>
      obtain ⟨ts, h1, h2⟩ := call_parse sc (n + 2) st hf hg legs hl line o [o] (.inl rfl)
      exact ⟨ts, h1, boolRes_stuck _, h2⟩
  | readFile f o =>
    cases o with
    | none =>
      obtain ⟨ts, h1, h2⟩ := call_read_file sc (n + 1) st hf hg legs hl f (.bool true) [] (.inr ⟨rfl, rfl⟩)
      exact ⟨ts, h1, noneRes_stuck _, h2⟩
    | some o =>
      obtain ⟨ts, h1, h2⟩ := call_read_file sc (n + 1) st hf hg legs hl f o [o] (.inl rfl)
      exact ⟨ts, h1, noneRes_stuck _, h2⟩
  | readFolder p =>
    obtain ⟨ts, h1, h2⟩ := call_read_folder sc n st hf hg legs hl p
    exact ⟨ts, h1, noneRes_stuck _, h2⟩
  | searchText f s =>
    obtain ⟨ts, h1, h2⟩ := call_search sc (n + 2) st hf hg f (.str s) _ rfl
    rw [out_after hl] at h2
    exact ⟨ts, h1, noneRes_stuck _, h2⟩
  | searchAll f ss =>
    obtain ⟨ts, h1, h2⟩ := call_search sc (n + 2) st hf hg f (.list ss) _ rfl
    rw [out_after hl] at h2
    exact ⟨ts, h1, noneRes_stuck _, h2⟩

/-- any calls -/
theorem api_calls (sc : Screen) (n : Nat) : ∀ (cs : List Spec.ApiCall) (legs : Legs) (st : St),
    st.frozen = false → find st.globals (py!"records") = some Spec.recordsVal →
    find st.globals (py!"LegTypeDesc") = some (Spec.legsVal legs) →
    ∃ texts, (Spec.ApiCall.expected sc cs legs).2.1.mapM (Event.text sc) = some texts ∧
      (∀ x ∈ (Spec.ApiCall.expected sc cs legs).1, x ≠ .error .stuck) ∧
      Spec.ApiCall.run (Src.library.env sc (n + 8)) cs st =
        ((Spec.ApiCall.expected sc cs legs).1, Spec.stAfter st (Spec.ApiCall.expected sc cs legs).2.2 texts)
  | [], legs, st, _, _, hl => ⟨[], rfl, by simp [Spec.ApiCall.expected], by
      simp only [Spec.ApiCall.run, Spec.ApiCall.expected, after_same st legs hl]⟩
  | c :: cs, legs, st, hf, hg, hl => by
    obtain ⟨ts, h1, h3, h4⟩ := api_call sc n c legs st hf hg hl
    obtain ⟨us, g1, g2, g3⟩ := api_calls sc n cs (c.model sc legs).2.2
      (Spec.stAfter st (c.model sc legs).2.2 ts) hf (after_records _ _ hg) (after_legs _ _ _)
    refine ⟨ts ++ us, mapM_append _ h1 g1, ?_, ?_⟩
    · intro x hx
      simp only [Spec.ApiCall.expected, List.mem_cons] at hx
      rcases hx with rfl | hx
      · exact h3
      · exact g2 x hx
    · simp only [Spec.ApiCall.run, Spec.ApiCall.expected, h4, g3, after_after]

/-- C122: a program imports the library and calls `parse`, `read_file`, `read_folder` and `search`, in any order, any number
of times, with any lines, files and folders, and any value for `output`; it may catch exceptions and go on. The source,
executed statement by statement, returns and raises what the model says, prints the texts of the model, and leaves nothing
behind but the table of leg types, as the model says. -/
theorem C122_session (sc : Screen) (n : Nat) (cs : List Spec.ApiCall) :
    ∃ texts, (Spec.ApiCall.expected sc cs legTypeDesc).2.1.mapM (Event.text sc) = some texts ∧
      Spec.ApiCall.run (Src.library.env sc (n + 8)) cs Spec.imported =
        ((Spec.ApiCall.expected sc cs legTypeDesc).1, Spec.stAfter Spec.imported (Spec.ApiCall.expected sc cs legTypeDesc).2.2 texts) := by
  obtain ⟨ts, h1, -, h3⟩ := api_calls sc n cs legTypeDesc Spec.imported rfl rfl rfl
  exact ⟨ts, h1, h3⟩

/-- C122: no call fails in a way that the model does not know. -/
theorem C122_never_stuck (sc : Screen) (n : Nat) (cs : List Spec.ApiCall) :
    ∀ x ∈ (Spec.ApiCall.run (Src.library.env sc (n + 8)) cs Spec.imported).1, x ≠ .error .stuck := by
  obtain ⟨ts, -, h2, h3⟩ := api_calls sc n cs legTypeDesc Spec.imported rfl rfl rfl
  rw [h3]
  exact h2

/-- C122: calls nest to a depth of eight, whatever is read: with more depth, nothing else happens. -/
theorem C122_depth (sc : Screen) (n m : Nat) (cs : List Spec.ApiCall) :
    Spec.ApiCall.run (Src.library.env sc (n + 8)) cs Spec.imported = Spec.ApiCall.run (Src.library.env sc (m + 8)) cs Spec.imported := by
  obtain ⟨ts, h1, h2⟩ := C122_session sc n cs
  obtain ⟨us, g1, g2⟩ := C122_session sc m cs
  rw [h1] at g1
  simp only [Option.some.injEq] at g1
  rw [h2, g2, g1]

end

section
attribute [local instance] Py.Tables.cpython311

-- the source searches a file of two lines, one of them a record
example : (match (Spec.ApiCall.run (Src.library.env someScreen 8)
      [.searchText (.text (py!"ABC" ++ [10] ++ someLine ++ [10])) (py!"ABC"), .parse (py!"ABC") none, .readFolder none, .searchAll .unopenable []]
      Spec.imported) with
    | ([.ok .none, .ok (.bool b), .error (.fault (.other .osError)), .error (.fault (.other .osError))], st) =>
      !b && st.out == [someLine, py!"Found 1 records that contain ABC"]
    | _ => false) = true := by decide +kernel

end
end Arinc.Lang
