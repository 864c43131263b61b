import Verif.Lemmas.Threads
import Verif.Props.Output
import Verif.Spec.Turns
/-!
# A bound for the steps of a program
-/
namespace Arinc
open Py Spec

/-- whatever the answers are that it can get, the program ends within `n` steps, and if it ends with a result then with one
    of which `Q` holds -/
inductive Within {α : Type} (Q : α → Prop) : Prog α → Nat → Prop
  | ok {x : α} (n : Nat) (h : Q x) : Within Q (.done (.ok x)) n
  | error (e : Exc) (n : Nat) : Within Q (.done (.error e)) n
  | print {e : Event} {k : Prog α} {n : Nat} (h : Within Q k n) : Within Q (.print e k) (n + 1)
  | find {v : Str} {k : Option Str → Prog α} {n : Nat} (h : ∀ a, Within Q (k a) n) : Within Q (.find v k) (n + 1)
  | store {v s : Str} {k : Prog α} {n : Nat} (h : Within Q k n) : Within Q (.store v s k) (n + 1)
  | has {key : Str} {k : Bool → Prog α} {n : Nat} (h : Within Q (k (inRegistry key)) n) : Within Q (.has key k) (n + 1)
  | get {key : Str} {k : Option Definition → Prog α} {n : Nat}
      (h : ∀ d, registry.lookup key = some d → Within Q (k (some d)) n) : Within Q (.get key k) (n + 1)

theorem Within.mono {α : Type} {Q : α → Prop} {p : Prog α} {n m : Nat} (h : Within Q p n) (hm : n ≤ m) : Within Q p m := by
  induction h generalizing m with
  | ok n h => exact .ok m h
  | error e n => exact .error e m
  | print h ih => obtain ⟨m, rfl⟩ : ∃ k, m = k + 1 := ⟨m - 1, by omega⟩; exact .print (ih (by omega))
  | find h ih => obtain ⟨m, rfl⟩ : ∃ k, m = k + 1 := ⟨m - 1, by omega⟩; exact .find fun a => ih a (by omega)
  | store h ih => obtain ⟨m, rfl⟩ : ∃ k, m = k + 1 := ⟨m - 1, by omega⟩; exact .store (ih (by omega))
  | has h ih => obtain ⟨m, rfl⟩ : ∃ k, m = k + 1 := ⟨m - 1, by omega⟩; exact .has (ih (by omega))
  | get h ih => obtain ⟨m, rfl⟩ : ∃ k, m = k + 1 := ⟨m - 1, by omega⟩; exact .get fun d hd => ih d hd (by omega)

theorem Within.bind {α β : Type} {Q : α → Prop} {R : β → Prop} {p : Prog α} {n m : Nat} {f : α → Prog β}
    (h : Within Q p n) (hf : ∀ x, Q x → Within R (f x) m) : Within R (p.bind f) (n + m) := by
  induction h with
  | ok n h => exact (hf _ h).mono (by omega)
  | error e n => exact .error e _
  | print h ih => rw [Nat.add_right_comm]; exact .print ih
  | find h ih => rw [Nat.add_right_comm]; exact .find ih
  | store h ih => rw [Nat.add_right_comm]; exact .store ih
  | has h ih => rw [Nat.add_right_comm]; exact .has ih
  | get h ih => rw [Nat.add_right_comm]; exact .get ih

theorem Within.attempt {α : Type} {Q : α → Prop} {p : Prog α} {n : Nat} (h : Within Q p n) :
    Within (fun _ => True) p.attempt n := by
  induction h with
  | ok n h => exact .ok n trivial
  | error e n => exact .ok n trivial
  | print h ih => exact .print ih
  | find h ih => exact .find ih
  | store h ih => exact .store ih
  | has h ih => exact .has ih
  | get h ih => exact .get ih

theorem within_emit {α : Type} {Q : α → Prop} {es : List Event} {k : Prog α} {n : Nat} (h : Within Q k n) :
    Within Q (emit es k) (es.length + n) := by
  induction es with
  | nil => rw [List.length_nil, Nat.zero_add]; exact h
  | cons e es ih => rw [List.length_cons, Nat.add_right_comm]; exact .print ih

theorem within_done {α : Type} (r : Except Exc α) (n : Nat) : Within (fun _ => True) (.done r) n := by
  cases r with
  | ok x => exact .ok n trivial
  | error e => exact .error e n

/-- a program that gives something gives it within the bound -/
theorem gives_within {α : Type} {Q : α → Prop} {p : Prog α} {r : Except Exc α} {out : List Event} {n m : Nat}
    (h : Gives p r out n) (hw : Within Q p m) : Gives p r out m := by
  induction h generalizing m with
  | done r n => exact .done r m
  | print h ih => cases hw with | print hw => exact .print (ih hw)
  | find h ih => cases hw with | find hw => exact .find fun a ha => ih a ha (hw a)
  | store hv h ih => cases hw with | store hw => exact .store hv (ih hw)
  | has h ih => cases hw with | has hw => exact .has (ih hw)
  | get hd h ih => cases hw with | get hw => exact .get hd (ih (hw _ hd))

/-- the most steps that a field of this type needs -/
def fieldSteps : DecFn → Nat
  | .f021 => 2
  | .f034 => 2
  | .f065 => 1
  | .f118 => 1
  | _ => 0

/-- the most steps that these fields need -/
def stepsOf (fs : List Field) : Nat := (fs.map fun f => fieldSteps f.dec).sum

theorem layouts_steps : registry.all (fun p => p.2.layouts.all fun l =>
    decide ((l.map fun s => fieldSteps s.dec).sum ≤ 2)) = true := by decide +kernel

variable [PyUnicode]

theorem runDec_prints (fn : DecFn) (v : Str) (rec : RecInfo) : (runDec fn v rec []).out.length ≤ fieldSteps fn := by
  by_cases h1 : fn = .f021
  · subst h1
    simp only [runDec, field_021]
    split <;> [skip; split <;> [skip; split]] <;> exact Nat.zero_le _
  by_cases h2 : fn = .f034
  · subst h2
    simp only [runDec, field_034, noisy]
    repeat' split
    all_goals simp [fieldSteps]
  by_cases h3 : fn = .f065
  · subst h3
    simp only [runDec, field_065, noisy]
    repeat' split
    all_goals simp [fieldSteps]
  by_cases h4 : fn = .f118
  · subst h4
    simp only [runDec, field_118, noisy]
    repeat' split
    all_goals simp [fieldSteps]
  rw [(field_over (P := fun _ => True) (fun _ _ => trivial) (fun _ _ => trivial) fn h1 h2 h3 h4).2]
  exact Nat.zero_le _

theorem within_field (fn : DecFn) (v : Str) (rec : RecInfo) : Within (fun _ => True) (fieldM fn v rec) (fieldSteps fn) := by
  unfold fieldM
  split
  · unfold field_021M
    simp only
    split
    · exact within_done _ _
    · split
      · exact .error _ _
      · refine .find fun a => ?_
        cases a with
        | some s => exact within_done _ _
        | none => exact .store (within_done _ _)
  · exact (within_emit (within_done _ 0)).mono (by have := runDec_prints fn v rec; omega)

theorem within_decodeRows (rec : RecInfo) (fs : List Field) :
    Within (fun _ => True) (decodeRowsM rec fs) (stepsOf fs) := by
  induction fs with
  | nil => exact .ok _ trivial
  | cons f fs ih =>
    unfold decodeRowsM
    refine ((within_field f.dec f.value rec).bind (m := stepsOf fs) fun v _ => ?_).mono (by simp [stepsOf])
    exact (ih.bind (m := 0) fun rows _ => .ok _ trivial)

theorem within_decode {r : Record} (h : stepsOf r.fields ≤ 2) (output : Bool) :
    Within (fun _ => True) (r.decodeM output) 3 := by
  unfold Record.decodeM
  refine ((within_decodeRows r.info r.fields).bind (m := 1) fun rows _ => ?_).mono (by omega)
  cases output with
  | true => exact .print (.ok _ trivial)
  | false => exact .ok _ trivial

theorem read_steps (r : Record) (h : stepsOf r.fields ≤ 2) (line : Str) :
    stepsOf (r.read line).obj.fields ≤ 2 ∧ (r.read line).out.length ≤ 3 := by
  rcases read_cases r line with ⟨_, h'⟩ | ⟨_, _, h'⟩ | ⟨hrec, k, d, hres, hd, hf, h'⟩
  · rw [h']; exact ⟨h, Nat.zero_le _⟩
  · rw [h']; exact ⟨h, Nat.zero_le _⟩
  · rw [h']
    unfold Record.readAs
    simp only
    split
    · exact ⟨h, Nat.le_refl _⟩
    · unfold Record.finish
      cases hs : (d.branch (r.enter line k d).primary).select line with
      | error e => exact ⟨h, Nat.zero_le _⟩
      | ok l =>
        refine ⟨?_, Nat.zero_le _⟩
        rcases select_mem hs with hm | hm
        · have h1 := List.all_eq_true.1 layouts_steps _ (lookup_mem hd)
          have h2 := of_decide_eq_true (List.all_eq_true.1 h1 l (branch_layouts hm))
          simp only [stepsOf, List.map_map]
          exact h2
        · subst hm; exact Nat.zero_le _

theorem read_quiet {r : Record} {line : Str} (h : (r.read line).res = .ok true) : (r.read line).out = [] := by
  obtain ⟨t, k, fs, hi⟩ := read_isLine h
  exact (C75_read hi).2.2.2.2

theorem within_readDefinition (r : Record) (line : Str) (h : inRegistry r.ident = true) {n : Nat}
    (ho : (r.readDefinition line).out.length ≤ n) :
    Within (fun x => x = r.readDefinition line) (r.readDefinitionM line) (n + 1) := by
  unfold inRegistry at h
  obtain ⟨d, hd⟩ := Option.isSome_iff_exists.1 h
  unfold Record.readDefinition at ho ⊢
  simp only [hd] at ho ⊢
  unfold Record.readDefinitionM
  refine .get fun d' hd' => ?_
  rw [hd] at hd'
  cases hd'
  exact (within_emit (Q := fun x => x = r.readWith d line) (k := .done (.ok (r.readWith d line))) (.ok 0 rfl)).mono ho

/-- three steps, and one for each message -/
theorem within_read (r : Record) (line : Str) :
    Within (fun x => x = r.read line) (r.readM line) ((r.read line).out.length + 3) := by
  obtain ⟨n, hn⟩ : ∃ n, (r.read line).out.length = n := ⟨_, rfl⟩
  have ho := Nat.le_of_eq hn
  rw [hn]
  clear hn
  unfold Record.read at ho ⊢
  unfold Record.readM
  split
  · exact .ok _ rfl
  · next hv =>
    simp only [if_neg hv] at ho
    simp only
    cases hp : (Slice.pair 4 12).eval line with
    | error e => exact .ok _ rfl
    | ok k =>
      simp only [hp] at ho ⊢
      split
      · next hk =>
        rw [if_pos hk] at ho
        refine .has ?_
        simp only [hk, if_true]
        exact (within_readDefinition _ line hk ho).mono (by omega)
      · next hk =>
        rw [if_neg hk] at ho
        refine .has ?_
        simp only [hk]
        refine .has ?_
        split
        · next h2 =>
          rw [if_pos h2] at ho
          exact within_readDefinition _ line h2 ho
        · next h2 => exact .ok _ rfl

theorem within_parse (line : Str) (output : Bool) : Within (fun _ => True) (parseM line output) 6 := by
  obtain ⟨hs, ho⟩ := read_steps Record.new (Nat.zero_le _) line
  unfold parseM
  by_cases h : (Record.new.read line).res = .ok true
  · refine ((within_read Record.new line).bind (m := 3) fun x hx => ?_).mono (by rw [read_quiet h]; exact Nat.le_refl _)
    subst hx
    simp only [h]
    exact (within_decode hs output).bind (m := 0) fun _ _ => .ok _ trivial
  · refine ((within_read Record.new line).bind (m := 0) fun x hx => ?_).mono (by omega)
    subst hx
    split
    · exact .error _ _
    · exact .ok _ trivial
    · next hr => exact absurd hr h

theorem within_parseLines (output : Bool) (ls : List Str) :
    Within (fun _ => True) (parseLinesM output ls) (6 * ls.length) := by
  induction ls with
  | nil => exact .ok _ trivial
  | cons l ls ih =>
    unfold parseLinesM
    exact ((within_parse l output).bind fun _ _ => ih).mono (by simp; omega)

theorem within_readFile (f : FileObj) (output : Bool) :
    Within (fun _ => True) (readFileM f output) (6 * lineCount f) := by
  unfold readFileM lineCount
  cases f.readlines with
  | error e => exact .error _ _
  | ok ls => exact within_parseLines output ls

theorem within_readFiles (fs : List FileObj) :
    Within (fun _ => True) (readFilesM fs) (6 * (fs.map lineCount).sum) := by
  induction fs with
  | nil => exact .ok _ trivial
  | cons f fs ih =>
    unfold readFilesM
    exact ((within_readFile f true).bind fun _ _ => ih).mono (by simp; omega)

theorem within_searchLines (filters : Filters) (ls : List Str) (count : Nat) :
    Within (fun _ => True) (searchLinesM filters ls count) (6 * ls.length + 1) := by
  induction ls generalizing count with
  | nil => exact .print (.ok _ trivial)
  | cons l ls ih =>
    have ho := (read_steps Record.new (Nat.zero_le _) l).2
    unfold searchLinesM
    by_cases h : (Record.new.read l).res = .ok true
    · refine ((within_read Record.new l).bind (m := 6 * ls.length + 2) fun x hx => ?_).mono
        (by rw [read_quiet h]; simp; omega)
      subst hx
      simp only [h]
      split
      · exact .print (ih _)
      · exact (ih _).mono (by omega)
    · refine ((within_read Record.new l).bind (m := 6 * ls.length + 1) fun x hx => ?_).mono (by simp; omega)
      subst hx
      split
      · exact .error _ _
      · exact ih count
      · next hr => exact absurd hr h

theorem within_search (f : FileObj) (filters : Filters) :
    Within (fun _ => True) (searchM f filters) (6 * lineCount f + 1) := by
  unfold searchM lineCount
  cases f.readlines with
  | error e => exact .error _ _
  | ok ls => exact within_searchLines filters ls 0

theorem within_call {objs : Nat → Record} (h : ∀ i, stepsOf (objs i).fields ≤ 2) (op : Op) :
    Within (fun x => ∀ i, stepsOf (x.1 i).fields ≤ 2) (callM objs op) (turns op) := by
  cases op with
  | new i =>
    refine .ok _ fun j => ?_
    simp only
    split
    · exact Nat.zero_le _
    · exact h j
  | read i line =>
    have hs := read_steps (objs i) (h i) line
    refine ((within_read (objs i) line).bind (m := 0) fun x hx => .ok _ fun j => ?_).mono
      (by have := hs.2; show _ ≤ 6; omega)
    subst hx
    simp only
    split
    · exact hs.1
    · exact h j
  | decode i output => exact (within_decode (h i) output).attempt.bind (m := 0) fun _ _ => .ok _ h
  | json i output single_line =>
    refine (within_emit (.ok 0 h)).mono ?_
    unfold Record.json turns
    simp only
    split <;> simp
  | parse line output => exact (within_parse line output).attempt.bind (m := 0) fun _ _ => .ok _ h
  | readFile f output => exact (within_readFile f output).attempt.bind (m := 0) fun _ _ => .ok _ h
  | readFolder fs =>
    cases fs with
    | none => exact .ok _ h
    | some fs => exact (within_readFiles fs).attempt.bind (m := 0) fun _ _ => .ok _ h
  | search f filters => exact (within_search f filters).attempt.bind (m := 0) fun _ _ => .ok _ h

theorem within_thread {objs : Nat → Record} (h : ∀ i, stepsOf (objs i).fields ≤ 2) (ops : List Op) :
    Within (fun _ => True) (threadM objs ops) (ops.map turns).sum := by
  induction ops generalizing objs with
  | nil => exact .ok _ trivial
  | cons op ops ih =>
    unfold threadM
    rw [List.map_cons, List.sum_cons]
    exact (within_call h op).bind fun x hx => (ih hx).bind (m := 0) fun _ _ => .ok _ trivial

theorem gives_length {α : Type} {p : Prog α} {r : Except Exc α} {out : List Event} {n : Nat} (h : Gives p r out n) :
    out.length ≤ n := by
  induction h with
  | done r n => exact Nat.zero_le _
  | print h ih => rw [List.length_cons]; omega
  | @find v k r out n h ih =>
    obtain ⟨a, ha⟩ : ∃ a, Legal v a := by
      unfold Legal
      cases legTypeDesc.lookup v with
      | some s => exact ⟨_, rfl⟩
      | none => exact ⟨_, .inl rfl⟩
    exact Nat.le_succ_of_le (ih a ha)
  | store hv h ih => omega
  | has h ih => omega
  | get hd h ih => omega

end Arinc
