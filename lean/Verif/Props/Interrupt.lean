import Verif.Lemmas.Interrupt
import Verif.Props.Bytes
/-!
# C91: interrupted calls

A call may be ended from outside after any of its accesses to what is shared, by `KeyboardInterrupt` or by a `print`
that fails; an interrupted `read` may leave anything in its object.
-/
namespace Arinc
open Py Spec Spec.Std

section
variable [PyUnicode]

/-- C91: in any sequence of calls, some of which are interrupted somewhere, those that are not have the outcomes they
    have if the others are not made at all; only objects whose own `read` was interrupted are excepted, until they
    are created anew. -/
theorem C91_others (items : List Item) :
    Agree (fun _ => False) items (World.init.session items).2 (outcomes (completed items)) :=
  session_agree init_ok init_ok _ (fun _ _ => rfl) items

/-- C91: what an interrupted call has printed is a first part of what it prints otherwise. -/
theorem C91_prefix (items : List Item) (op : Op) (n : Nat) (left : Left) :
    (((World.init.session items).1).interrupt op n left).2 <+: printedBy (((World.init.session items).1).step op).2 := by
  have h := session_ok init_ok items
  obtain ⟨m, hm⟩ := gives_call h op
  simp only [World.interrupt, h.reg]
  exact (upTo_gives hm n h.legs).2.2.1

/-- C91: an interruption that comes late enough finds everything printed. -/
theorem C91_late (items : List Item) (op : Op) : ∃ m, ∀ n, m ≤ n → ∀ left,
    (((World.init.session items).1).interrupt op n left).2 = printedBy (((World.init.session items).1).step op).2 := by
  have h := session_ok init_ok items
  obtain ⟨m, hm⟩ := gives_call h op
  refine ⟨m, fun n hn left => ?_⟩
  simp only [World.interrupt, h.reg]
  exact (upTo_gives hm n h.legs).2.2.2 hn

/-- C91: `parse`, `read_file`, `read_folder` and `search` do in any process what they do in a new one, whatever was
    interrupted before; in particular if the call itself was, and is made again. -/
theorem C91_again (items : List Item) (op : Op) (h : target op = none) :
    ((World.init.session items).1.step op).2 = (World.init.step op).2 :=
  step_module (session_ok init_ok items) init_ok h

/-- C91: interruptions do not damage the tables of the module. -/
theorem C91_tables (items : List Item) :
    (World.init.session items).1.reg = initReg ∧ Grown (World.init.session items).1.legs :=
  ⟨(session_ok init_ok items).reg, (session_ok init_ok items).legs⟩

/-- C91: so of a file of any bytes an interrupted `read_file` shows a first part of what it should. -/
theorem C91_read_file (items : List Item) (b : List ℕ) (output : Bool) (n : Nat) (left : Left) :
    ∃ res out, BytesDo output b res out ∧
      (((World.init.session items).1).interrupt (.readFile (Disk.bytes b).file output) n left).2 <+: out := by
  have h := session_ok init_ok items
  refine ⟨_, _, (C89_read_file b output h.legs _ _).1 ⟨rfl, rfl⟩, ?_⟩
  have := C91_prefix items (.readFile (Disk.bytes b).file output) n left
  simp only [World.step, readFile_world _ _ h, printedBy] at this
  exact this

end

/-! ## Examples -/

section
attribute [local instance] Py.Tables.cpython311

/-- an interruption after every number of accesses: of two records with an undocumented leg type, nothing, the first
    table, and both are printed -/
example : (List.range 14).map (fun n => (World.init.interrupt
      (.readFile (.text (Sample.sidBadLeg ++ 10 :: Sample.sidBadLeg)) true) n ⟨[], [], [], none, false⟩).2.length) =
    [0, 0, 0, 0, 0, 0, 1, 1, 1, 1, 1, 2, 2, 2] := by decide +kernel

/-- an interrupted `decode`, then another call: the same table as without -/
example : let items := [Item.call (.read 0 Sample.sidBadLeg), .cut (.decode 0 true) 2 ⟨[], [], [], none, false⟩,
      .call (.decode 0 false)]
    (match (World.init.session items).2 with
      | [.outcome (.read (.ok true) []), .interrupted [], .outcome o] =>
        decide ([Outcome.read (.ok true) [], o] = outcomes [.read 0 Sample.sidBadLeg, .decode 0 false])
      | _ => false) = true ∧
    (World.init.session items).1.legs.length = legTypeDesc.length + 1 := by
  decide +kernel

end

end Arinc
