import Verif.Lemmas.Threads
import Verif.Props.Samples
/-!
# C83: threads do not disturb each other

Any number of threads, each making any sequence of calls on objects of its own; `schedule` says whose turn it is,
one access to shared state at a time. A schedule that stops early stands for a process that is killed.
-/
namespace Arinc
open Py Spec

section
variable [PyUnicode]

/-- C83: a thread that has finished got exactly the results, and printed exactly the output, in the same order, that
the same calls give in a program without other threads. -/
theorem C83_same_as_alone (calls : Nat → List Op) (schedule : List Nat) (i : Nat) (r : Except Exc (List Result))
    (h : ((Machine.start calls).run schedule).threads i = .done r) :
    r = .ok (aloneResults (calls i)) ∧ printed ((Machine.start calls).run schedule) i = alonePrints (calls i) := by
  obtain ⟨_, rest, hg, hp⟩ := (run_fine (start_fine calls) schedule).2 i
  rw [h] at hg
  cases hg
  rw [List.append_nil] at hp
  exact ⟨rfl, hp⟩

/-- C83: at every moment, what a thread has printed is a first part of what it prints alone. -/
theorem C83_prefix (calls : Nat → List Op) (schedule : List Nat) (i : Nat) :
    printed ((Machine.start calls).run schedule) i <+: alonePrints (calls i) := by
  obtain ⟨_, rest, _, hp⟩ := (run_fine (start_fine calls) schedule).2 i
  exact ⟨rest, hp⟩

/-- C83: no thread waits for another: some number of turns of its own is enough for it to finish, however they are
mixed with turns of the others. -/
theorem C83_finishes (calls : Nat → List Op) (i : Nat) :
    ∃ n, ∀ schedule : List Nat, n ≤ schedule.count i →
      ((Machine.start calls).run schedule).threads i = .done (.ok (aloneResults (calls i))) := by
  obtain ⟨n, hn⟩ := start_track calls i
  refine ⟨n, fun schedule hs => ?_⟩
  obtain ⟨rest, hg, _⟩ := run_track (start_fine calls) hn schedule
  rw [Nat.sub_eq_zero_of_le hs] at hg
  exact gives_zero hg

/-- C83: the table of record kinds is never changed, and the table of leg types never gives anything for a documented
leg type but its description, nor for another anything but the word for an unknown one. -/
theorem C83_tables (calls : Nat → List Op) (schedule : List Nat) :
    ((Machine.start calls).run schedule).reg = initReg ∧
    (∀ v s, legTypeDesc.lookup v = some s → ((Machine.start calls).run schedule).legs.lookup v = some s) ∧
    (∀ v s, legTypeDesc.lookup v = none → ((Machine.start calls).run schedule).legs.lookup v = some s →
      s = py!"<UNKNOWN>") := by
  obtain ⟨⟨hl, hr⟩, _⟩ := run_fine (start_fine calls) schedule
  refine ⟨hr, fun v s hv => ?_, fun v s hv h => ?_⟩
  · have := hl v
    unfold Legal at this
    rw [hv] at this
    exact this
  · have := hl v
    unfold Legal at this
    rw [hv, h] at this
    rcases this with h | h
    · cases h
    · exact Option.some.inj h

end

section
attribute [local instance] Py.Tables.cpython311

/-- Two threads that decode the same record with an undocumented leg type: thread 0 looks it up and does not find it,
thread 1 looks it up, too, stores it, prints its table and ends; then thread 0 stores it again and prints. Both have
finished, and have printed the same. -/
example :
    let calls := fun _ => [Op.parse Sample.sidBadLeg true]
    let m := (Machine.start calls).run [0, 0, 0, 0, 1, 1, 1, 1, 1, 1, 0, 0]
    (match m.threads 0, m.threads 1 with
      | .done (.ok r), .done (.ok r') => decide (r = [.bool (.ok true)] ∧ r' = [.bool (.ok true)])
      | _, _ => false) = true ∧
    m.log.map Prod.fst = [1, 0] ∧ printed m 0 = printed m 1 ∧
    m.legs.length = legTypeDesc.length + 1 ∧ m.legs.lookup (py!"X") = some (py!"<UNKNOWN>") := by
  decide +kernel

/-- Killed before the second table: thread 0 has printed nothing, thread 1 everything. -/
example :
    let m := (Machine.start fun _ => [Op.parse Sample.sidBadLeg true]).run [0, 0, 0, 0, 1, 1, 1, 1, 1, 1, 0]
    printed m 0 = [] ∧ printed m 1 = alonePrints [Op.parse Sample.sidBadLeg true] ∧ printed m 1 ≠ [] := by
  decide +kernel

end
end Arinc
