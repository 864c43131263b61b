import Verif.Spec.Output
import Verif.Lemmas.Interrupt
import Verif.Lemmas.Agree
/-!
# Lemmas: output that lacks characters
-/
namespace Arinc
open Py Spec

/-- a program goes as it does elsewhere up to the first print that fails -/
theorem runOn_gives {α : Type} {p : Prog α} {r : Except Exc α} {out : List Event} {m : Nat} (h : Gives p r out m)
    (fits : Event → Bool) {legs : Legs} (hl : Grown legs) :
    Grown (p.runOn fits legs initReg).2.1 ∧ (p.runOn fits legs initReg).2.2.1 = initReg ∧
      ((∀ e ∈ out, fits e = true) → (p.runOn fits legs initReg).1 = some r ∧ (p.runOn fits legs initReg).2.2.2 = out) ∧
      ((¬ ∀ e ∈ out, fits e = true) → (p.runOn fits legs initReg).1 = none ∧
        ∃ e rest, out = (p.runOn fits legs initReg).2.2.2 ++ e :: rest ∧
          (∀ e ∈ (p.runOn fits legs initReg).2.2.2, fits e = true) ∧ fits e = false) := by
  induction h generalizing legs with
  | done r m => exact ⟨hl, rfl, fun _ => ⟨rfl, rfl⟩, fun h => absurd (fun e he => by cases he) h⟩
  | @print e k r out m h ih =>
    obtain ⟨h1, h2, h3, h4⟩ := ih hl
    simp only [Prog.runOn]
    cases he : fits e with
    | true =>
      simp only [if_true]
      refine ⟨h1, h2, fun ha => ?_, fun hn => ?_⟩
      · obtain ⟨a, b⟩ := h3 fun e he => ha e (by simp [he])
        exact ⟨a, by rw [b]⟩
      · obtain ⟨a, e', rest, b, c, d⟩ := h4 fun ha => hn fun x hx => by
          rcases List.mem_cons.1 hx with rfl | hx
          · exact he
          · exact ha x hx
        refine ⟨a, e', rest, by rw [List.cons_append, ← b], fun x hx => ?_, d⟩
        rcases List.mem_cons.1 hx with rfl | hx
        · exact he
        · exact c x hx
    | false =>
      simp only [Bool.false_eq_true, if_false]
      refine ⟨hl, by trivial, fun ha => ?_, fun _ => ⟨by trivial, e, out, rfl, ?_, he⟩⟩
      · have := ha e (by simp)
        rw [he] at this; cases this
      · intro x hx; cases hx
  | @find v k r out m h ih => exact ih _ (legal_grown hl v) hl
  | @store v k r out m hv h ih => exact ih (setItem_grown hl hv)
  | @has key k r out m h ih =>
    simp only [Prog.runOn, has_initReg]
    exact ih hl
  | @get key d k r out m hd h ih =>
    have e : initReg.get key = (some d, initReg) := by
      unfold Reg.get
      rw [lookup_initReg, hd]
      rfl
    simp only [Prog.runOn, e]
    exact ih hl

variable [PyUnicode]

theorem leftOn_step {w : World} (h : w.OK) (op : Op) : w.leftOn op = (w.step op).1.objs ∨ printedBy (w.step op).2 = [] := by
  cases op with
  | new i => exact Or.inr rfl
  | read i line => exact Or.inl rfl
  | decode i output => exact Or.inl rfl
  | json i a b => exact Or.inl rfl
  | parse line output =>
    left; simp only [World.step, parse_world h line output, World.leftOn]
  | readFile f output =>
    left; simp only [World.step, readFile_world f output h, World.leftOn]
  | readFolder fs =>
    left; simp only [World.step, readFolder_world fs h, World.leftOn]
  | search f filters =>
    left; simp only [World.step, search_world f filters h, World.leftOn]

/-- one call on this output -/
theorem stepOn_cut {w : World} (h : w.OK) (fits : Event → Bool) (op : Op) :
    Cut fits (w.step op).2 (w.stepOn fits op).2 ∧ (w.stepOn fits op).1.objs = (w.step op).1.objs ∧
      (w.stepOn fits op).1.OK := by
  obtain ⟨m, hm⟩ := gives_call h op
  obtain ⟨h1, h2, h3, h4⟩ := runOn_gives hm fits h.legs
  rw [← h.reg] at h1 h2 h3 h4
  by_cases ha : ∀ e ∈ printedBy (w.step op).2, fits e = true
  · obtain ⟨a, b⟩ := h3 ha
    unfold World.stepOn
    simp only [a, b]
    exact ⟨.whole ha, by trivial, h2.trans h.reg, h1, (step_ok h op).objs⟩
  · obtain ⟨a, e, rest, b, c, d⟩ := h4 ha
    have ho : w.leftOn op = (w.step op).1.objs := by
      rcases leftOn_step h op with ho | ho
      · exact ho
      · rw [ho] at ha; exact absurd (fun e he => by cases he) ha
    unfold World.stepOn
    simp only [a]
    refine ⟨.cut b c d, ho, h2.trans h.reg, h1, ?_⟩
    rw [ho]; exact (step_ok h op).objs

/-- the outcome of a call depends on the objects only -/
theorem step_objs {w w' : World} (h : w.OK) (h' : w'.OK) (ho : w.objs = w'.objs) (op : Op) :
    (w.step op).2 = (w'.step op).2 ∧ (w.step op).1.objs = (w'.step op).1.objs := by
  have key : ∀ {w w' : World}, w.OK → w'.OK → w.objs = w'.objs → (w.step op).1.objs = (w'.step op).1.objs := by
    intro w w' h h' ho
    cases op with
    | new i => simp only [World.step, World.set, ho]
    | read i line => simp only [World.step, World.set, h.reg, h'.reg, ho]
    | decode i output => exact ho
    | json i a b => exact ho
    | parse line output => simp only [World.step, parse_world h, parse_world h', ho]
    | readFile f output => simp only [World.step, readFile_world f output h, readFile_world f output h', ho]
    | readFolder fs => simp only [World.step, readFolder_world fs h, readFolder_world fs h', ho]
    | search f filters => simp only [World.step, search_world f filters h, search_world f filters h', ho]
  refine ⟨?_, key h h' ho⟩
  cases ht : target op with
  | none => exact step_module h h' ht
  | some i => exact (step_object h h' ht (congrFun ho i)).1

theorem runOn_cut {w w' : World} (h : w.OK) (h' : w'.OK) (ho : w.objs = w'.objs) (fits : Event → Bool) (ops : List Op) :
    (w.run ops).2.length = (w'.runOn fits ops).2.length ∧
    ∀ p ∈ (w.run ops).2.zip (w'.runOn fits ops).2, Cut fits p.1 p.2 := by
  induction ops generalizing w w' with
  | nil => exact ⟨rfl, fun p hp => by cases hp⟩
  | cons op ops ih =>
    obtain ⟨h1, h2, h3⟩ := stepOn_cut h' fits op
    obtain ⟨h4, h5⟩ := step_objs h h' ho op
    obtain ⟨h6, h7⟩ := ih (step_ok h op) h3 (h5.trans h2.symm)
    simp only [World.run, World.runOn, List.length_cons, List.zip_cons_cons, List.mem_cons]
    refine ⟨by rw [h6], fun p hp => ?_⟩
    rcases hp with rfl | hp
    · rw [h4]; exact h1
    · exact h7 p hp

end Arinc
