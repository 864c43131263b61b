import Verif.Lemmas.Turns
import Verif.Props.Samples
import Verif.Py.Cpython311
/-!
# C118: the work for a line is bounded
-/
namespace Arinc
open Py Spec

section
variable [PyUnicode]

/-- C118: A thread that got as many turns as its calls need at most has finished, with the results it gets alone, whatever
    the other threads do with the turns in between: six turns for a line are enough. -/
theorem C118_turns (calls : Nat → List Op) (i : Nat) (schedule : List Nat)
    (h : ((calls i).map turns).sum ≤ schedule.count i) :
    ((Machine.start calls).run schedule).threads i = .done (.ok (aloneResults (calls i))) := by
  obtain ⟨n, hn⟩ := gives_alone (calls i)
  have hg := gives_within hn (within_thread (fun _ => Nat.zero_le _) (calls i))
  obtain ⟨rest, hg, _⟩ := run_track (start_fine calls) ⟨_, hg, rfl⟩ schedule
  rw [Nat.sub_eq_zero_of_le h] at hg
  exact gives_zero hg

/-- C118: So any number of threads are done after as many turns as all their calls need together, if each gets its part. -/
theorem C118_all (calls : Nat → List Op) (threads : Nat) (schedule : List Nat)
    (h : ∀ i < threads, ((calls i).map turns).sum ≤ schedule.count i) :
    ∀ i < threads, ((Machine.start calls).run schedule).threads i = .done (.ok (aloneResults (calls i))) :=
  fun i hi => C118_turns calls i schedule (h i hi)

/-- C118: The only calls whose work depends on the size of what they are given are those that read files, and it grows with
    the number of lines. -/
theorem C118_per_line (calls : Nat → List Op) (i : Nat) (f : FileObj) (output : Bool) (filters : Filters) :
    (calls i = [.readFile f output] → ∀ schedule : List Nat, 6 * lineCount f ≤ schedule.count i →
      ∃ res, ((Machine.start calls).run schedule).threads i = .done (.ok [.unit res])) ∧
    (calls i = [.search f filters] → ∀ schedule : List Nat, 6 * lineCount f + 1 ≤ schedule.count i →
      ∃ res, ((Machine.start calls).run schedule).threads i = .done (.ok [.unit res])) := by
  constructor
  · intro hc schedule h
    exact ⟨_, (C118_turns calls i schedule (by rw [hc]; simpa [turns] using h)).trans (by rw [hc]; rfl)⟩
  · intro hc schedule h
    exact ⟨_, (C118_turns calls i schedule (by rw [hc]; simpa [turns] using h)).trans (by rw [hc]; rfl)⟩

end

section
attribute [local instance] Py.Tables.cpython311

/-- C118: Six is the least number for which this is true: `parse` of this departure with an undocumented leg type has not
    finished after five turns. -/
theorem C118_least :
    (match ((Machine.start fun _ => [Op.parse Sample.sidBadLeg true]).run (List.replicate 5 0)).threads 0 with
      | .done _ => false
      | _ => true) = true := by decide +kernel

/-- three threads: after these turns all have finished -/
example :
    let calls : Nat → List Op := fun i => if i = 0 then [.parse Sample.sidBadLeg true] else if i = 1 then
      [.new 0, .read 0 Sample.airport, .decode 0 true, .json 0 false true] else
      [.search (.text (Sample.airport ++ [10] ++ Sample.vhf)) (.str [])]
    ∀ i < 3, ((calls i).map turns).sum ≤ ((List.replicate 13 [2, 0, 1]).flatten).count i := by decide +kernel

end
end Arinc
