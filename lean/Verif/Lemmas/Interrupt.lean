import Verif.Spec.Interrupt
import Verif.Lemmas.Threads
/-!
# Lemmas: interrupted calls
-/
namespace Arinc
open Py Spec

theorem setItem_grown {legs : Legs} (h : Grown legs) {v : Str} (hv : legTypeDesc.lookup v = none) :
    Grown (setItem legs v unknown) := by
  obtain ⟨extra, rfl, he⟩ := h
  have hm : v ∉ legTypeDesc.map Prod.fst := by
    intro hm
    obtain ⟨p, hp, rfl⟩ := List.mem_map.1 hm
    rw [List.lookup_eq_none_iff] at hv
    have := hv p hp
    simp at this
  have key : ∀ l : Legs, v ∉ l.map Prod.fst → setItem (l ++ extra) v unknown = l ++ setItem extra v unknown := by
    intro l
    induction l with
    | nil => intro _; rfl
    | cons a l ih =>
      intro hn
      simp only [List.map_cons, List.mem_cons, not_or] at hn
      rw [List.cons_append, setItem, if_neg (fun e => hn.1 e.symm), ih hn.2]
      rfl
  refine ⟨setItem extra v unknown, key _ hm, ?_⟩
  clear key
  induction extra with
  | nil =>
    intro p hp
    simp only [setItem, List.mem_singleton] at hp
    subst hp
    exact ⟨hm, rfl⟩
  | cons a extra ih =>
    intro p hp
    unfold setItem at hp
    split at hp
    · next e =>
      rcases List.mem_cons.1 hp with rfl | hp
      · exact ⟨(he a (by simp)).1, rfl⟩
      · exact he p (by simp [hp])
    · rcases List.mem_cons.1 hp with rfl | hp
      · exact he _ (by simp)
      · exact ih (fun p hp => he p (by simp [hp])) p hp

theorem legal_grown {legs : Legs} (h : Grown legs) (v : Str) : Legal v (legs.lookup v) := by
  unfold Legal
  cases hv : legTypeDesc.lookup v with
  | some s => exact grown_lookup_known h hv
  | none => exact grown_lookup_unknown h hv

/-- the first accesses leave the tables as they should be and print a first part -/
theorem upTo_gives {α : Type} {p : Prog α} {r : Except Exc α} {out : List Event} {m : Nat} (h : Gives p r out m)
    (n : Nat) {legs : Legs} (hl : Grown legs) :
    Grown (p.upTo n legs initReg).1 ∧ (p.upTo n legs initReg).2.1 = initReg ∧
      (p.upTo n legs initReg).2.2 <+: out ∧ (m ≤ n → (p.upTo n legs initReg).2.2 = out) := by
  induction h generalizing n legs with
  | done r m => cases n <;> exact ⟨hl, rfl, List.nil_prefix, fun _ => rfl⟩
  | print h ih =>
    cases n with
    | zero => exact ⟨hl, rfl, List.nil_prefix, fun h => absurd h (by omega)⟩
    | succ n =>
      obtain ⟨h1, h2, h3, h4⟩ := ih n hl
      exact ⟨h1, h2, (List.prefix_cons_inj _).2 h3, fun hm => congrArg _ (h4 (by omega))⟩
  | @find v k r out m h ih =>
    cases n with
    | zero => exact ⟨hl, rfl, List.nil_prefix, fun h => absurd h (by omega)⟩
    | succ n =>
      obtain ⟨h1, h2, h3, h4⟩ := ih _ (legal_grown hl v) n hl
      exact ⟨h1, h2, h3, fun hm => h4 (by omega)⟩
  | @store v k r out m hv h ih =>
    cases n with
    | zero => exact ⟨hl, rfl, List.nil_prefix, fun h => absurd h (by omega)⟩
    | succ n =>
      obtain ⟨h1, h2, h3, h4⟩ := ih n (setItem_grown hl hv)
      exact ⟨h1, h2, h3, fun hm => h4 (by omega)⟩
  | @has key k r out m h ih =>
    cases n with
    | zero => exact ⟨hl, rfl, List.nil_prefix, fun h => absurd h (by omega)⟩
    | succ n =>
      obtain ⟨h1, h2, h3, h4⟩ := ih n hl
      simp only [Prog.upTo, has_initReg]
      exact ⟨h1, h2, h3, fun hm => h4 (by omega)⟩
  | @get key d k r out m hd h ih =>
    cases n with
    | zero => exact ⟨hl, rfl, List.nil_prefix, fun h => absurd h (by omega)⟩
    | succ n =>
      have e : initReg.get key = (some d, initReg) := by
        unfold Reg.get
        rw [lookup_initReg, hd]
        rfl
      obtain ⟨h1, h2, h3, h4⟩ := ih n hl
      simp only [Prog.upTo, e]
      exact ⟨h1, h2, h3, fun hm => h4 (by omega)⟩

variable [PyUnicode]

theorem spoil_ok {objs : Nat → Record} (h : ∀ i, FieldsOK (objs i)) (op : Op) (left : Left) (i : Nat) :
    FieldsOK (spoil objs op left i) := by
  cases op with
  | new j =>
    simp only [spoil]
    split
    · split
      · exact new_fieldsOK
      · exact h _
    · exact h _
  | read j line =>
    simp only [spoil]
    split
    · cases left.assigned with
      | true => exact read_fieldsOK (h j) line
      | false => exact h j
    · exact h _
  | _ => exact h i

theorem spoil_other (objs : Nat → Record) {op : Op} (left : Left) {i : Nat} (h : spoiled op ≠ some i) :
    spoil objs op left i = objs i := by
  cases op with
  | new j =>
    have : i ≠ j := fun e => h (by rw [e]; rfl)
    simp only [spoil, if_neg this]
  | read j line =>
    have : i ≠ j := fun e => h (by rw [e]; rfl)
    simp only [spoil, if_neg this]
  | _ => rfl

theorem interrupt_ok {w : World} (h : w.OK) (op : Op) (n : Nat) (left : Left) : (w.interrupt op n left).1.OK := by
  obtain ⟨m, hm⟩ := gives_call h op
  obtain ⟨h1, h2, _⟩ := upTo_gives hm n h.legs
  refine ⟨?_, ?_, spoil_ok h.objs op left⟩
  · simp only [World.interrupt, h.reg]; exact h2
  · simp only [World.interrupt, h.reg]; exact h1

theorem session_ok {w : World} (h : w.OK) (items : List Item) : (w.session items).1.OK := by
  induction items generalizing w with
  | nil => exact h
  | cons x items ih =>
    cases x with
    | call op => exact ih (step_ok h op)
    | cut op n left => exact ih (interrupt_ok h op n left)

theorem session_agree {w w' : World} (h : w.OK) (h' : w'.OK) (bad : Nat → Prop)
    (ho : ∀ i, ¬ bad i → w.objs i = w'.objs i) (items : List Item) :
    Agree bad items (w.session items).2 (w'.run (completed items)).2 := by
  induction items generalizing w w' bad with
  | nil => exact .nil
  | cons x items ih =>
    cases x with
    | cut op n left =>
      refine .cut (ih (interrupt_ok h op n left) h' _ fun i hi => ?_)
      rw [not_or] at hi
      exact (spoil_other w.objs left hi.2).trans (ho i hi.1)
    | call op =>
      have hs := step_ok h op
      have hs' := step_ok h' op
      cases ht : target op with
      | none =>
        have := step_module h h' ht
        have hn : ∀ i, target op ≠ some i := fun i => by rw [ht]; simp
        show Agree bad _ (.outcome (w.step op).2 :: _) ((w'.step op).2 :: _)
        rw [this]
        refine .same (fun i hi => absurd hi (hn i)) (ih hs hs' bad fun i hi => ?_)
        rw [step_other h (hn i), step_other h' (hn i)]
        exact ho i hi
      | some i =>
        by_cases hb : bad i
        · cases op with
          | new j =>
            cases ht
            refine .new (ih hs hs' _ fun k hk => ?_)
            by_cases e : k = i
            · simp [World.step, World.set, e]
            · simp only [World.step, World.set, if_neg e]
              exact ho k fun hb => hk ⟨hb, e⟩
          | _ =>
            refine .unknown ht (by simp) hb (ih hs hs' bad fun k hk => ?_)
            have hn : target _ ≠ some k := fun e => hk (by rw [ht] at e; cases e; exact hb)
            rw [step_other h hn, step_other h' hn]
            exact ho k hk
        · obtain ⟨s1, s2⟩ := step_object h h' ht (ho i hb)
          show Agree bad _ (.outcome (w.step op).2 :: _) ((w'.step op).2 :: _)
          rw [s1]
          refine .same (fun k hk => by rw [ht] at hk; cases hk; exact hb) (ih hs hs' bad fun k hk => ?_)
          by_cases e : k = i
          · subst e; exact s2
          · have hn : target op ≠ some k := fun q => e (by rw [ht] at q; cases q; rfl)
            rw [step_other h hn, step_other h' hn]
            exact ho k hk

end Arinc
