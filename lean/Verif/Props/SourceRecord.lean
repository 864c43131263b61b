import Verif.Lemmas.SourceApi
import Verif.Lemmas.SourceCalls
import Verif.Spec.SourceSession
import Verif.Props.SourceDefs
/-!
# C121: the source of class `Record`
-/
namespace Arinc.Lang
open Py

section
variable [PyUnicode]

/-- C121, `Record()`: the object of the model. -/
theorem C121_new (sc : Screen) (n : Nat) (st : St) :
    (Src.library.env sc (n + 1)).call (py!"Record") [] st = (.ok (Spec.recordVal Record.new), st) := call_Record sc n st

/-- one call -/
theorem rec_call (sc : Screen) (n : Nat) (c : Spec.RecCall) (r : Record) (hr : ∀ f ∈ r.fields, Known f.dec) (legs : Legs) (st : St)
    (hf : st.frozen = false) (hg : find st.globals (py!"records") = some Spec.recordsVal)
    (hl : find st.globals (py!"LegTypeDesc") = some (Spec.legsVal legs)) :
    ∃ texts, (c.model sc r legs).2.1.mapM (Event.text sc) = some texts ∧
      (∀ f ∈ (c.model sc r legs).2.2.1.fields, Known f.dec) ∧
      (c.model sc r legs).1 ≠ .error .stuck ∧
      (Src.library.env sc (n + 5)).callMethod (py!"Record") c.source.1 (Spec.recordVal r) c.source.2 st =
        ((c.model sc r legs).1, Spec.stAfter st (c.model sc r legs).2.2.2 texts, Spec.recordVal (c.model sc r legs).2.2.1) := by
  have hjson : ∀ (o : Val) (s : Bool) (args : List Val), (Src.library.env sc (n + 5)).callMethod (py!"Record") (py!"json") (Spec.recordVal r) args st =
      (Src.library.env sc (n + 5)).callMethod (py!"Record") (py!"json") (Spec.recordVal r) [o, .bool s] st →
      ∃ texts, (r.json (Spec.isTrue o) s).2.mapM (Event.text sc) = some texts ∧ (∀ f ∈ r.fields, Known f.dec) ∧
        ((.ok (.str (r.json (Spec.isTrue o) s).1) : Except Err Val) ≠ .error .stuck) ∧
        (Src.library.env sc (n + 5)).callMethod (py!"Record") (py!"json") (Spec.recordVal r) args st =
          (.ok (.str (r.json (Spec.isTrue o) s).1), Spec.stAfter st legs texts, Spec.recordVal r) := by
    intro o s args ha
    obtain ⟨ts, h1, h2⟩ := call_json sc (n + 4) r o (.bool s) rfl st
    exact ⟨ts, h1, hr, by simp, by rw [ha, h2, out_after hl]⟩
  have hdecode : ∀ (o : Val) (args : List Val), (Src.library.env sc (n + 5)).callMethod (py!"Record") (py!"decode") (Spec.recordVal r) args st =
      (Src.library.env sc (n + 5)).callMethod (py!"Record") (py!"decode") (Spec.recordVal r) [o] st →
      ∃ texts, (r.decode (Spec.isTrue o) legs).out.mapM (Event.text sc) = some texts ∧ (∀ f ∈ r.fields, Known f.dec) ∧
        Spec.tableRes sc (r.decodeF sc.printable legs) ≠ .error .stuck ∧
        (Src.library.env sc (n + 5)).callMethod (py!"Record") (py!"decode") (Spec.recordVal r) args st =
          (Spec.tableRes sc (r.decodeF sc.printable legs), Spec.stAfter st (r.decode (Spec.isTrue o) legs).legs texts, Spec.recordVal r) := by
    intro o args ha
    obtain ⟨ts, h1, h2⟩ := call_decode sc (n + 2) r hr o legs st hl
    refine ⟨ts, h1, hr, ?_, ha.trans h2⟩
    cases hd : r.decodeF sc.printable legs with
    | error e => simp [Spec.tableRes]
    | ok rows =>
      obtain ⟨t, ht⟩ := table_shown sc r legs hd
      simp [Spec.tableRes, ht]
  cases c with
  | read line =>
    obtain ⟨ts, h1, h2⟩ := call_read sc n st hf hg r line
    refine ⟨ts, h1, known_read r hr line, ?_, ?_⟩
    · simp only [Spec.RecCall.model]
      cases r.readF line <;> simp [Spec.boolRes]
    · simp only [Spec.RecCall.model, Spec.RecCall.source]
      rw [h2, out_after hl]
  | validate line =>
    refine ⟨[], rfl, hr, by simp [Spec.RecCall.model], ?_⟩
    simp only [Spec.RecCall.model, Spec.RecCall.source]
    rw [call_validate sc (n + 4), after_same st legs hl]
  | primary =>
    refine ⟨[], rfl, hr, by simp [Spec.RecCall.model], ?_⟩
    simp only [Spec.RecCall.model, Spec.RecCall.source]
    rw [after_same st legs hl]
    obtain ⟨i, raw, c, f, dd⟩ := r
    cases dd with
    | none => exact call_primary sc (n + 4) st (.inl rfl)
    | some d => exact call_primary sc (n + 4) st (.inr ⟨_, _, rfl⟩)
  | hasCont =>
    refine ⟨[], rfl, hr, by simp [Spec.RecCall.model], ?_⟩
    simp only [Spec.RecCall.model, Spec.RecCall.source]
    rw [call_hasCont sc (n + 3), after_same st legs hl]
  | decode o =>
    cases o with
    | none => exact hdecode (.bool true) [] rfl
    | some o => exact hdecode o [o] rfl
  | json o =>
    rcases o with _ | ⟨o, _ | s⟩
    · exact hjson (.bool true) true [] rfl
    · exact hjson o true [o] rfl
    · exact hjson o s [o, .bool s] rfl

/-- any calls -/
theorem rec_calls (sc : Screen) (n : Nat) : ∀ (cs : List Spec.RecCall) (r : Record) (legs : Legs) (st : St),
    (∀ f ∈ r.fields, Known f.dec) → st.frozen = false → find st.globals (py!"records") = some Spec.recordsVal →
    find st.globals (py!"LegTypeDesc") = some (Spec.legsVal legs) →
    ∃ texts, (Spec.RecCall.expected sc cs r legs).2.1.mapM (Event.text sc) = some texts ∧
      (∀ x ∈ (Spec.RecCall.expected sc cs r legs).1, x ≠ .error .stuck) ∧
      Spec.RecCall.run (Src.library.env sc (n + 5)) cs st (Spec.recordVal r) =
        ((Spec.RecCall.expected sc cs r legs).1, Spec.stAfter st (Spec.RecCall.expected sc cs r legs).2.2.2 texts,
          Spec.recordVal (Spec.RecCall.expected sc cs r legs).2.2.1)
  | [], r, legs, st, _, _, _, hl => ⟨[], rfl, by simp [Spec.RecCall.expected], by
      simp only [Spec.RecCall.run, Spec.RecCall.expected, after_same st legs hl]⟩
  | c :: cs, r, legs, st, hr, hf, hg, hl => by
    obtain ⟨ts, h1, h2, h3, h4⟩ := rec_call sc n c r hr legs st hf hg hl
    obtain ⟨us, g1, g2, g3⟩ := rec_calls sc n cs (c.model sc r legs).2.2.1 (c.model sc r legs).2.2.2
      (Spec.stAfter st (c.model sc r legs).2.2.2 ts) h2 hf (after_records _ _ hg) (after_legs _ _ _)
    refine ⟨ts ++ us, mapM_append _ h1 g1, ?_, ?_⟩
    · intro x hx
      simp only [Spec.RecCall.expected, List.mem_cons] at hx
      rcases hx with rfl | hx
      · exact h3
      · exact g2 x hx
    · simp only [Spec.RecCall.run, Spec.RecCall.expected, h4, g3, after_after]

/-- C121: a program imports the library, makes a `Record` and calls its methods, in any order, any number of times, with
any texts. The source, executed statement by statement, gives the results of the model, prints the texts of the model, and
leaves the object, the table of leg types and everything else as the model says. -/
theorem C121_record (sc : Screen) (n : Nat) (cs : List Spec.RecCall) :
    ∃ texts, (Spec.RecCall.expected sc cs Record.new legTypeDesc).2.1.mapM (Event.text sc) = some texts ∧
      Spec.RecCall.run (Src.library.env sc (n + 5)) cs Spec.imported (Spec.recordVal Record.new) =
        ((Spec.RecCall.expected sc cs Record.new legTypeDesc).1,
          Spec.stAfter Spec.imported (Spec.RecCall.expected sc cs Record.new legTypeDesc).2.2.2 texts,
          Spec.recordVal (Spec.RecCall.expected sc cs Record.new legTypeDesc).2.2.1) := by
  obtain ⟨ts, h1, -, h3⟩ := rec_calls sc n cs Record.new legTypeDesc Spec.imported (by simp [Record.new]) rfl rfl rfl
  exact ⟨ts, h1, h3⟩

/-- C121: no call fails in a way that the model does not know. -/
theorem C121_never_stuck (sc : Screen) (n : Nat) (cs : List Spec.RecCall) :
    ∀ x ∈ (Spec.RecCall.run (Src.library.env sc (n + 5)) cs Spec.imported (Spec.recordVal Record.new)).1, x ≠ .error .stuck := by
  obtain ⟨ts, -, h2, h3⟩ := rec_calls sc n cs Record.new legTypeDesc Spec.imported (by simp [Record.new]) rfl rfl rfl
  rw [h3]
  exact h2

end

section
attribute [local instance] Py.Tables.cpython311

/-- a line: a VHF navaid, most of its columns blank -/
def someLine : Str := py!"SUSAD        ABC   D 0" ++ List.replicate 101 32 ++ py!"123456789"

-- the source reads the line and prints it as JSON; before, there is nothing to show
example : (match (Spec.RecCall.run (Src.library.env someScreen 5)
      [.json none, .primary, .read someLine, .primary, .hasCont, .json (some (.none, some true)), .json none] Spec.imported
      (Spec.recordVal Record.new)) with
    | ([.ok (.str a), .ok (.bool b), .ok (.bool c), .ok (.bool d), .ok (.bool e), .ok (.str f), .ok (.str g)], st, _) =>
      a == py!"{}" && !b && c && d && !e && f == g && st.out == [a, g] && g.length > 200
    | _ => false) = true := by decide +kernel

end
end Arinc.Lang
