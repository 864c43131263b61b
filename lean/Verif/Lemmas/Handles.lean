import Verif.Spec.Handles
/-!
# Lemmas: traces of calls
-/
namespace Arinc
open Py Spec

/-! ## What is held -/

theorem held_append (o : List Handle) (a b : List Act) : held o (a ++ b) = held (held o a) b := by
  induction a generalizing o with
  | nil => rfl
  | cons x a ih => cases x <;> exact ih _

theorem actsPrint_append (a b : List Act) : actsPrint (a ++ b) = actsPrint a ++ actsPrint b := by
  induction a with
  | nil => rfl
  | cons x a ih => cases x <;> simp [actsPrint, ih]

theorem opened_append (a b : List Act) : opened (a ++ b) = opened a ++ opened b := by
  induction a with
  | nil => rfl
  | cons x a ih => cases x <;> simp [opened, ih]

/-- nothing but prints -/
def Quiet (as : List Act) : Prop := ∀ a ∈ as, ∃ e, a = .print e

theorem Quiet.append {a b : List Act} (ha : Quiet a) (hb : Quiet b) : Quiet (a ++ b) := fun x hx =>
  (List.mem_append.1 hx).elim (ha x) (hb x)

theorem Quiet.prefix {a b : List Act} (h : a <+: b) (hb : Quiet b) : Quiet a := fun x hx =>
  hb x (h.subset hx)

theorem quiet_nil : Quiet [] := nofun

theorem Quiet.held {as : List Act} (h : Quiet as) (o : List Handle) : held o as = o := by
  induction as with
  | nil => rfl
  | cons x as ih =>
    obtain ⟨e, rfl⟩ := h x (.head _)
    exact ih fun a ha => h a (.tail _ ha)

theorem Quiet.opened {as : List Act} (h : Quiet as) : opened as = [] := by
  induction as with
  | nil => rfl
  | cons x as ih =>
    obtain ⟨e, rfl⟩ := h x (.head _)
    exact ih fun a ha => h a (.tail _ ha)

/-- the `n`-th file and those after it: each opened, then prints, then closed -/
inductive Blocks : Nat → List Act → Prop
  | nil (n : Nat) : Blocks n []
  | cons {n : Nat} {q as : List Act} (hq : Quiet q) (h : Blocks (n + 1) as) :
      Blocks n (.openFile n :: (q ++ .closeFile n :: as))

theorem Blocks.held {n : Nat} {as : List Act} (h : Blocks n as) (o : List Handle) : held o as = o := by
  induction h with
  | nil => rfl
  | cons hq _ ih =>
    simp only [Spec.held, held_append, hq.held, List.erase_cons_head]
    exact ih

theorem Blocks.opened {n : Nat} {as : List Act} (h : Blocks n as) : ∃ k, opened as = List.range' n k := by
  induction h with
  | nil => exact ⟨0, rfl⟩
  | @cons n q as hq _ ih =>
    obtain ⟨k, hk⟩ := ih
    refine ⟨k + 1, ?_⟩
    simp only [Spec.opened, opened_append, hq.opened, List.nil_append, hk, List.range'_succ]

theorem prefix_append_cases {α : Type} {p a b : List α} (h : p <+: a ++ b) :
    p <+: a ∨ ∃ q, q <+: b ∧ p = a ++ q := by
  induction a generalizing p with
  | nil => exact .inr ⟨p, h, rfl⟩
  | cons x a ih =>
    cases p with
    | nil => exact .inl List.nil_prefix
    | cons y p =>
      obtain ⟨rfl, h'⟩ := List.cons_prefix_cons.1 h
      rcases ih h' with h' | ⟨q, hq, rfl⟩
      · exact .inl (List.cons_prefix_cons.2 ⟨rfl, h'⟩)
      · exact .inr ⟨q, hq, rfl⟩

theorem Blocks.during {n : Nat} {as : List Act} (h : Blocks n as) (o : List Handle) {p : List Act} (hp : p <+: as) :
    Spec.held o p = o ∨ ∃ m, Spec.held o p = .file m :: o := by
  induction h generalizing p with
  | nil => rw [List.prefix_nil.1 hp]; exact .inl rfl
  | @cons n q as hq hb ih =>
    cases p with
    | nil => exact .inl rfl
    | cons x p =>
      obtain ⟨rfl, hp'⟩ := List.cons_prefix_cons.1 hp
      rcases prefix_append_cases hp' with h1 | ⟨p', h1, rfl⟩
      · right; exact ⟨n, (Quiet.prefix h1 hq).held _⟩
      · simp only [Spec.held, held_append, hq.held]
        cases p' with
        | nil => exact .inr ⟨n, rfl⟩
        | cons y p' =>
          obtain ⟨rfl, h2⟩ := List.cons_prefix_cons.1 h1
          simp only [Spec.held, List.erase_cons_head]
          exact ih h2

/-! ## Programs that only print -/

namespace Io

theorem quiet_andThen {α β : Type} {p : Io α} {q : α → Io β} (hp : ∀ k, Quiet (p k).acts)
    (hq : ∀ a k, Quiet (q a k).acts) (k : Option Nat) : Quiet (p.andThen q k).acts := by
  unfold andThen
  cases (p k).res with
  | error e => exact hp k
  | ok a => exact (hp k).append (hq a _)

theorem quiet_prints (es : List Event) (k : Option Nat) : Quiet (prints es k).acts := by
  induction es generalizing k with
  | nil => exact quiet_nil
  | cons e es ih =>
    refine quiet_andThen (fun k => ?_) (fun _ k => ih k) k
    cases k with
    | none => intro a ha; cases ha with
      | head => exact ⟨e, rfl⟩
      | tail _ h => cases h
    | some k => cases k with
      | zero => exact quiet_nil
      | succ k => intro a ha; cases ha with
        | head => exact ⟨e, rfl⟩
        | tail _ h => cases h

theorem withFile_acts {α : Type} (n : Nat) (f : FileObj) {body : List Str → Io α}
    (hb : ∀ ls k, Quiet (body ls k).acts) (k : Option Nat) :
    ((withFile n f body k).acts = [] ∧ ∃ e, (withFile n f body k).res = .error e) ∨
    ∃ q, Quiet q ∧ (withFile n f body k).acts = .openFile n :: (q ++ [.closeFile n]) := by
  cases f with
  | unopenable => exact .inl ⟨rfl, _, rfl⟩
  | undecodable =>
    cases k with
    | none => exact .inr ⟨[], quiet_nil, rfl⟩
    | some k => cases k with
      | zero => exact .inl ⟨rfl, _, rfl⟩
      | succ k => exact .inr ⟨[], quiet_nil, rfl⟩
  | text s =>
    cases k with
    | none => exact .inr ⟨_, hb (readlines s) none, rfl⟩
    | some k => cases k with
      | zero => exact .inl ⟨rfl, _, rfl⟩
      | succ k => exact .inr ⟨_, hb (readlines s) (some k), rfl⟩

/-! ## What is printed, and how it ends -/

/-- the result of a program that is not interrupted -/
def lift {α : Type} : Except Exc α → Except Stop α
  | .ok a => .ok a
  | .error e => .error (.exc e)

/-- `p` prints `out` and ends with `r`, unless it is interrupted before -/
structure Sim {α : Type} (p : Io α) (out : List Event) (r : Except Exc α) : Prop where
  pre : ∀ k, actsPrint (p k).acts <+: out
  fin : ∀ k, (p k).res = .error .interrupt ∨ ((p k).res = lift r ∧ actsPrint (p k).acts = out)
  whole : (p none).res = lift r ∧ actsPrint (p none).acts = out ∧ (p none).left = none

theorem sim_ret {α : Type} (a : α) : Sim (ret a) [] (.ok a) :=
  ⟨fun _ => List.prefix_refl _, fun _ => .inr ⟨rfl, rfl⟩, rfl, rfl, rfl⟩

theorem sim_raise {α : Type} (e : Exc) : Sim (raise e : Io α) [] (.error e) :=
  ⟨fun _ => List.prefix_refl _, fun _ => .inr ⟨rfl, rfl⟩, rfl, rfl, rfl⟩

theorem sim_act (a : Act) : Sim (act a) (actsPrint [a]) (.ok ()) := by
  refine ⟨fun k => ?_, fun k => ?_, rfl, rfl, rfl⟩
  · cases k with
    | none => exact List.prefix_refl _
    | some k => cases k with
      | zero => exact List.nil_prefix
      | succ k => exact List.prefix_refl _
  · cases k with
    | none => exact .inr ⟨rfl, rfl⟩
    | some k => cases k with
      | zero => exact .inl rfl
      | succ k => exact .inr ⟨rfl, rfl⟩

theorem Sim.error {α β : Type} {p : Io α} {out : List Event} {e : Exc} (h : Sim p out (.error e)) (q : α → Io β) :
    Sim (p.andThen q) out (.error e) := by
  have hk : ∀ k, (p k).res = .error .interrupt ∨ (p k).res = .error (.exc e) := fun k =>
    (h.fin k).imp id fun x => x.1
  refine ⟨fun k => ?_, fun k => ?_, ?_⟩
  · rcases hk k with hr | hr <;> simp only [andThen, hr] <;> exact h.pre k
  · rcases h.fin k with hr | ⟨hr, ho⟩
    · exact .inl (by simp only [andThen, hr])
    · exact .inr (by simp only [andThen, hr, lift]; exact ⟨trivial, ho⟩)
  · obtain ⟨hr, ho, hl⟩ := h.whole
    simp only [andThen, hr, lift]
    exact ⟨trivial, ho, hl⟩

theorem Sim.ok {α β : Type} {p : Io α} {out : List Event} {a : α} (h : Sim p out (.ok a)) {q : α → Io β}
    {out' : List Event} {r : Except Exc β} (hq : Sim (q a) out' r) : Sim (p.andThen q) (out ++ out') r := by
  refine ⟨fun k => ?_, fun k => ?_, ?_⟩
  · rcases h.fin k with hr | ⟨hr, ho⟩
    · simp only [andThen, hr]
      exact (h.pre k).trans (List.prefix_append _ _)
    · simp only [andThen, hr, lift, actsPrint_append, ho]
      exact (List.prefix_append_right_inj _).2 (hq.pre _)
  · rcases h.fin k with hr | ⟨hr, ho⟩
    · exact .inl (by simp only [andThen, hr])
    · simp only [andThen, hr, lift, actsPrint_append, ho]
      rcases hq.fin (p k).left with hr' | ⟨hr', ho'⟩
      · exact .inl hr'
      · exact .inr ⟨hr', by rw [ho']⟩
  · obtain ⟨hr, ho, hl⟩ := h.whole
    obtain ⟨hr', ho', hl'⟩ := hq.whole
    simp only [andThen, hr, lift, actsPrint_append, ho, hl, ho', hr', hl']
    exact ⟨trivial, trivial, trivial⟩

theorem sim_prints (es : List Event) : Sim (prints es) es (.ok ()) := by
  induction es with
  | nil => exact sim_ret ()
  | cons e es ih => exact (sim_act (.print e)).ok ih

theorem Sim.closing {α : Type} {p : Io α} {out : List Event} {r : Except Exc α} (h : Sim p out r) (n : Nat) :
    Sim (closing n p) out r := by
  have hs : ∀ k, actsPrint (Io.closing n p k).acts = actsPrint (p k).acts := fun k => by
    simp [Io.closing, actsPrint_append, actsPrint]
  refine ⟨fun k => hs k ▸ h.pre k, fun k => ?_, h.whole.1, hs none ▸ h.whole.2.1, h.whole.2.2⟩
  rw [hs k]
  exact h.fin k

theorem sim_withFile {α : Type} (n : Nat) (f : FileObj) {body : List Str → Io α} {out : List Str → List Event}
    {r : List Str → Except Exc α} (h : ∀ ls, Sim (body ls) (out ls) (r ls)) :
    Sim (withFile n f body)
      (match f.readlines with | .ok ls => out ls | .error _ => [])
      (match f.readlines with | .ok ls => r ls | .error e => .error e) := by
  cases f with
  | unopenable => exact sim_raise _
  | undecodable => exact (sim_act (.openFile n)).ok ((sim_raise _).closing n)
  | text s => exact (sim_act (.openFile n)).ok ((h (readlines s)).closing n)

end Io

variable [PyUnicode]

theorem parseIo_quiet (line : Str) (output : Bool) (legs : Legs) (k : Option Nat) :
    Quiet (parseIo line output legs k).acts := by
  refine Io.quiet_andThen (Io.quiet_prints _) (fun _ k => ?_) k
  cases (parse line output legs).res <;> exact quiet_nil

theorem parseLinesIo_quiet (output : Bool) (ls : List Str) (legs : Legs) (k : Option Nat) :
    Quiet (parseLinesIo output ls legs k).acts := by
  induction ls generalizing legs k with
  | nil => exact quiet_nil
  | cons l ls ih => exact Io.quiet_andThen (parseIo_quiet _ _ _) (fun _ k => ih _ k) k

theorem searchLinesIo_quiet (filters : Filters) (ls : List Str) (n : Nat) (k : Option Nat) :
    Quiet (searchLinesIo filters ls n k).acts := by
  induction ls generalizing n k with
  | nil => exact Io.quiet_prints _ k
  | cons l ls ih =>
    refine Io.quiet_andThen (Io.quiet_prints _) (fun _ k => ?_) k
    cases (Record.new.read l).res with
    | error e => exact quiet_nil
    | ok b =>
      cases b with
      | false => exact ih _ _
      | true =>
        cases filters.keep (Record.new.read l).obj.raw with
        | true => exact Io.quiet_andThen (Io.quiet_prints _) (fun _ k => ih _ k) k
        | false => exact ih _ _

theorem readFilesIo_acts (n : Nat) (fs : List FileObj) (legs : Legs) (k : Option Nat) :
    ∃ b, Blocks n b ∧
      (((readFilesIo n fs legs k).res = .ok () ∧ (readFilesIo n fs legs k).acts = b ++ [.closeDir]) ∨
       ((∃ e, (readFilesIo n fs legs k).res = .error e) ∧ (readFilesIo n fs legs k).acts = b)) := by
  induction fs generalizing n legs k with
  | nil =>
    refine ⟨[], .nil n, ?_⟩
    cases k with
    | none => exact .inl ⟨rfl, rfl⟩
    | some k => cases k with
      | zero => exact .inr ⟨⟨_, rfl⟩, rfl⟩
      | succ k => exact .inl ⟨rfl, rfl⟩
  | cons f fs ih =>
    have hw := Io.withFile_acts n f (parseLinesIo_quiet true · legs) k
    show ∃ b, Blocks n b ∧ (((Io.andThen (readFileIo n f true legs) _ k).res = _ ∧ _) ∨ _)
    simp only [readFilesIo, Io.andThen]
    change ((readFileIo n f true legs k).acts = [] ∧ ∃ e, (readFileIo n f true legs k).res = .error e) ∨
      ∃ q, Quiet q ∧ (readFileIo n f true legs k).acts = .openFile n :: (q ++ [.closeFile n]) at hw
    cases hr : (readFileIo n f true legs k).res with
    | error e =>
      rcases hw with ⟨ha, _⟩ | ⟨q, hq, ha⟩
      · exact ⟨[], .nil n, .inr ⟨⟨e, rfl⟩, ha⟩⟩
      · exact ⟨_, .cons hq (.nil _), .inr ⟨⟨e, rfl⟩, ha⟩⟩
    | ok legs' =>
      rcases hw with ⟨_, e, he⟩ | ⟨q, hq, ha⟩
      · rw [hr] at he; cases he
      · obtain ⟨b, hb, h⟩ := ih (n + 1) legs' (readFileIo n f true legs k).left
        refine ⟨_, .cons hq hb, ?_⟩
        rcases h with ⟨h1, h2⟩ | ⟨h1, h2⟩
        · exact .inl ⟨h1, by simp only [ha, h2]; simp⟩
        · exact .inr ⟨h1, by simp only [ha, h2]; simp⟩

theorem sim_parse (line : Str) (output : Bool) (legs : Legs) :
    Io.Sim (parseIo line output legs) (parse line output legs).out
      ((parse line output legs).res.map fun _ => (parse line output legs).legs) := by
  have h := (Io.sim_prints (parse line output legs).out).ok
    (q := fun _ => match (parse line output legs).res with
      | .error e => .raise e
      | .ok _ => .ret (parse line output legs).legs)
    (out' := []) (r := (parse line output legs).res.map fun _ => (parse line output legs).legs)
    (by cases (parse line output legs).res with
      | error e => exact Io.sim_raise e
      | ok b => exact Io.sim_ret _)
  rw [List.append_nil] at h
  exact h

theorem sim_parseLines (output : Bool) (ls : List Str) (legs : Legs) :
    Io.Sim (parseLinesIo output ls legs) (parseLines output ls legs).out
      ((parseLines output ls legs).res.map fun _ => (parseLines output ls legs).legs) := by
  induction ls generalizing legs with
  | nil => exact Io.sim_ret _
  | cons l ls ih =>
    have hp := sim_parse l output legs
    simp only [parseLinesIo, parseLines]
    cases hr : (parse l output legs).res with
    | error e => rw [hr] at hp; exact hp.error _
    | ok b => rw [hr] at hp; exact hp.ok (ih _)

theorem sim_readFile (n : Nat) (f : FileObj) (output : Bool) (legs : Legs) :
    Io.Sim (readFileIo n f output legs) (readFile f output legs).out
      ((readFile f output legs).res.map fun _ => (readFile f output legs).legs) := by
  have h := Io.sim_withFile n f (sim_parseLines output · legs)
  unfold readFile
  cases hf : f.readlines with
  | error e => rw [hf] at h; exact h
  | ok ls => rw [hf] at h; exact h

theorem sim_readFiles (n : Nat) (fs : List FileObj) (legs : Legs) :
    Io.Sim (readFilesIo n fs legs) (readFiles fs legs).out (readFiles fs legs).res := by
  induction fs generalizing n legs with
  | nil => exact Io.sim_act .closeDir
  | cons f fs ih =>
    have hp := sim_readFile n f true legs
    simp only [readFilesIo, readFiles]
    cases hr : (readFile f true legs).res with
    | error e => rw [hr] at hp; exact hp.error _
    | ok b => rw [hr] at hp; exact hp.ok (ih _ _)

theorem sim_readFolder (entries : Option (List FileObj)) (legs : Legs) :
    Io.Sim (readFolderIo entries legs) (readFolder entries legs).out (readFolder entries legs).res := by
  cases entries with
  | none => exact Io.sim_raise _
  | some fs => exact (Io.sim_act .openDir).ok (sim_readFiles 0 fs legs)

theorem sim_searchLines (filters : Filters) (ls : List Str) (n : Nat) :
    Io.Sim (searchLinesIo filters ls n) (searchLines filters ls n).2 (searchLines filters ls n).1 := by
  induction ls generalizing n with
  | nil => exact Io.sim_prints _
  | cons l ls ih =>
    simp only [searchLinesIo, searchLines]
    cases (Record.new.read l).res with
    | error e =>
      have := (Io.sim_prints (Record.new.read l).out).ok (q := fun _ => .raise e) (Io.sim_raise (α := Unit) e)
      rw [List.append_nil] at this
      exact this
    | ok b =>
      cases b with
      | false => exact (Io.sim_prints _).ok (ih n)
      | true =>
        cases hk : filters.keep (Record.new.read l).obj.raw with
        | true =>
          simp only [if_true]
          rw [List.append_assoc]
          exact (Io.sim_prints _).ok ((Io.sim_prints _).ok (ih (n + 1)))
        | false =>
          simp only [Bool.false_eq_true, if_false]
          exact (Io.sim_prints _).ok (ih n)

theorem sim_search (f : FileObj) (filters : Filters) :
    Io.Sim (searchIo f filters) (search f filters).2 (search f filters).1 := by
  have h := Io.sim_withFile 0 f (sim_searchLines filters · 0)
  unfold search
  cases hf : f.readlines with
  | error e => rw [hf] at h; exact h
  | ok ls => rw [hf] at h; exact h

end Arinc
