import Verif.Spec.Registry
import Verif.Lemmas.Process
import Verif.Lemmas.File
/-!
# Lemmas: using the table of record types
-/
namespace Arinc
open Py Spec

theorem lookup_put (g : Reg) (key : Str) (d : Definition) (k : Str) :
    (g.put key d).lookup k = if k = key then some (some d) else g.lookup k := by
  induction g with
  | nil =>
    simp only [Reg.put, List.lookup_cons, List.lookup_nil]
    by_cases h : k = key
    · simp [h]
    · rw [beq_false_of_ne h, if_neg h]
  | cons p g ih =>
    obtain ⟨k', v⟩ := p
    simp only [Reg.put]
    by_cases hk : k' = key
    · subst hk
      rw [if_pos rfl, List.lookup_cons, List.lookup_cons]
      by_cases h : k = k'
      · simp [h]
      · rw [beq_false_of_ne h, if_neg h]
    · rw [if_neg hk, List.lookup_cons, List.lookup_cons, ih]
      by_cases h : k = k'
      · subst h; simp [hk]
      · have : (k == k') = false := by simpa using h
        simp only [this]

theorem lookup_remove (g : Reg) {key k : Str} (h : k ≠ key) :
    (g.filter fun p => p.1 != key).lookup k = g.lookup k := by
  induction g with
  | nil => rfl
  | cons p g ih =>
    obtain ⟨k', v⟩ := p
    by_cases hk : k' = key
    · have h1 : (k == k') = false := by simpa [hk] using h
      rw [List.filter_cons_of_neg (by simp [hk]), ih, List.lookup_cons, h1]
    · rw [List.filter_cons_of_pos (by simpa using hk), List.lookup_cons, List.lookup_cons, ih]

theorem lookup_get (g : Reg) (key k : Str) (h : k ≠ key) : (g.get key).2.lookup k = g.lookup k := by
  unfold Reg.get
  cases hg : g.lookup key with
  | some v => rfl
  | none =>
    simp only [lookup_append, List.lookup_cons, beq_false_of_ne h, List.lookup_nil]
    cases g.lookup k <;> rfl

/-- the table is the one of the library, but for these keys -/
def Reg.But (g : Reg) (before : List Str) : Prop := ∀ k, k ∉ before → g.lookup k = initReg.lookup k

theorem initReg_supported {k : Str} (h : k ∈ supported) : ∃ d, initReg.lookup k = some (some d) := by
  have : ∀ k ∈ supported, (registry.lookup k).isSome = true := by decide +kernel
  obtain ⟨d, hd⟩ := Option.isSome_iff_exists.1 (this k h)
  exact ⟨d, by rw [lookup_initReg, hd]; rfl⟩

theorem act_but {g : Reg} {before : List Str} (h : g.But before) (a : RegUse) :
    (g.act a).But ((touched a).toList ++ before) := by
  intro k hk
  simp only [List.mem_append, not_or] at hk
  cases a with
  | call op => exact h k hk.2
  | ask key => exact h k hk.2
  | assign key d =>
    have : k ≠ key := by simpa [touched] using hk.1
    simp only [Reg.act, lookup_put, if_neg this]
    exact h k hk.2
  | remove key =>
    have : k ≠ key := by simpa [touched] using hk.1
    simp only [Reg.act]
    rw [lookup_remove g this]
    exact h k hk.2
  | lookup key =>
    by_cases hkk : k = key
    · subst hkk
      by_cases hs : k ∈ supported
      · obtain ⟨d, hd⟩ := initReg_supported hs
        have := h k hk.2
        rw [hd] at this
        simp only [Reg.act, Reg.get, this, hd]
      · exact absurd (by simp [touched, hs]) hk.1
    · simp only [Reg.act, lookup_get g key k hkk]
      exact h k hk.2

variable [PyUnicode]

/-- the entries that matter for this line are those of the library -/
def Reg.Same (g : Reg) (line : Str) : Prop :=
  WellShaped line → ∀ key, Names line key → g.lookup key = initReg.lookup key

omit [PyUnicode] in
theorem pair_eval {line : Str} (h : 132 ≤ line.length) :
    (Slice.pair 4 12).eval line = .ok (col line 4 ++ col line 12) := by
  rw [eval_ok (by decide) h]
  simp [Slice.columns, pick]

theorem definitionG_same {g : Reg} {r : Record} {line : Str} (h : g.lookup r.ident = initReg.lookup r.ident)
    (hs : inRegistry r.ident = true) : Record.readDefinitionG g r line = (g, r.readDefinition line) := by
  unfold Record.readDefinitionG Record.readDefinition Reg.get
  unfold inRegistry at hs
  rw [h, lookup_initReg]
  cases hd : registry.lookup r.ident with
  | none => rw [hd] at hs; cases hs
  | some d => rfl

theorem readG_same {g : Reg} {line : Str} (h : g.Same line) (r : Record) : r.readG g line = (g, r.read line) := by
  unfold Record.readG Record.read
  split
  · rfl
  · next hv =>
    have hv : validate line = true := by simpa using hv
    have hl := length_line (validate_iff_isRecord.1 hv)
    have h := h (validate_iff.1 hv)
    have h1 := h (slice line 4 6) (Or.inl (by rw [slice_eq_cols]))
    have h2 := h (col line 4 ++ col line 12) (Or.inr rfl)
    have e1 : g.has (slice line 4 6) = inRegistry (slice line 4 6) := by
      rw [← has_initReg]; unfold Reg.has; rw [h1]
    have e2 : g.has (col line 4 ++ col line 12) = inRegistry (col line 4 ++ col line 12) := by
      rw [← has_initReg]; unfold Reg.has; rw [h2]
    simp only [pair_eval hl, e1, e2]
    split
    · next hi => exact definitionG_same (r := { r with raw := strip line, ident := slice line 4 6 }) h1 hi
    · split
      · next hi =>
        exact definitionG_same (r := { r with raw := strip line, ident := col line 4 ++ col line 12 }) h2 hi
      · rfl

/-- with the table of the library -/
def World.plain (w : World) : World := { w with reg := initReg }

/-- the same result and the same process but for the table, which is `g` -/
structure Sim {α : Type} (g : Reg) (x x' : World × α) : Prop where
  res : x.2 = x'.2
  rest : x.1.plain = x'.1
  reg : x.1.reg = g

theorem parse_same {w : World} {line : Str} (h : w.reg.Same line) (output : Bool) :
    Sim w.reg (w.parse line output) (w.plain.parse line output) := by
  unfold World.parse
  rw [readG_same h]
  simp only [World.plain, readG_init]
  cases (Record.new.read line).res with
  | error e => exact ⟨rfl, rfl, rfl⟩
  | ok b =>
    cases b with
    | false => exact ⟨rfl, rfl, rfl⟩
    | true =>
      simp only
      cases (Record.decode (Record.new.read line).obj output w.legs).res <;> exact ⟨rfl, rfl, rfl⟩

theorem parseLines_same (output : Bool) {ls : List Str} {w : World} (h : ∀ l ∈ ls, w.reg.Same l) :
    Sim w.reg (World.parseLines output ls w) (World.parseLines output ls w.plain) := by
  induction ls generalizing w with
  | nil => exact ⟨rfl, rfl, rfl⟩
  | cons l ls ih =>
    obtain ⟨h1, h2, h3⟩ := parse_same (h l (by simp)) output
    simp only [World.parseLines]
    generalize w.parse l output = x at h1 h2 h3
    generalize w.plain.parse l output = x' at h1 h2
    obtain ⟨v, o⟩ := x
    obtain ⟨v', o'⟩ := x'
    simp only at h1 h2 h3
    subst h1 h2
    have ih := ih (w := v) (by rw [h3]; exact fun l hl => h l (by simp [hl]))
    rw [h3] at ih
    cases o with
    | parse res out =>
      cases res with
      | ok b => exact ⟨by simp only [ih.res], ih.rest, ih.reg⟩
      | error e => exact ⟨rfl, rfl, h3⟩
    | _ => exact ⟨rfl, rfl, h3⟩

theorem readFile_same {f : FileObj} (output : Bool) {w : World} (h : ∀ s, f = .text s → ∀ l ∈ readlines s, w.reg.Same l) :
    Sim w.reg (w.readFile f output) (w.plain.readFile f output) := by
  unfold World.readFile
  cases f with
  | text s => exact parseLines_same output (h s rfl)
  | unopenable => exact ⟨rfl, rfl, rfl⟩
  | undecodable => exact ⟨rfl, rfl, rfl⟩

theorem readFiles_same {fs : List FileObj} {w : World} (h : ∀ s, .text s ∈ fs → ∀ l ∈ readlines s, w.reg.Same l) :
    Sim w.reg (World.readFiles fs w) (World.readFiles fs w.plain) := by
  induction fs generalizing w with
  | nil => exact ⟨rfl, rfl, rfl⟩
  | cons f fs ih =>
    obtain ⟨h1, h2, h3⟩ := readFile_same (f := f) (w := w) true fun s hs => h s (by simp [hs])
    simp only [World.readFiles]
    generalize w.readFile f true = x at h1 h2 h3
    generalize w.plain.readFile f true = x' at h1 h2
    obtain ⟨v, o⟩ := x
    obtain ⟨v', o'⟩ := x'
    simp only at h1 h2 h3
    subst h1 h2
    have ih := ih (w := v) (by rw [h3]; exact fun s hs => h s (by simp [hs]))
    rw [h3] at ih
    obtain ⟨res, out⟩ := o
    cases res with
    | ok u => exact ⟨by simp only [ih.res], ih.rest, ih.reg⟩
    | error e => exact ⟨rfl, rfl, h3⟩

omit [PyUnicode] in
theorem wrap {g : Reg} (out : List Event) {x x' : World × Except Exc Unit × List Event} (h : Sim g x x') :
    Sim g (x.1, x.2.1, out ++ x.2.2) (x'.1, x'.2.1, out ++ x'.2.2) :=
  ⟨by simp only [h.res], h.rest, h.reg⟩

theorem searchLines_same (filters : Filters) {ls : List Str} (n : Nat) {w : World} (h : ∀ l ∈ ls, w.reg.Same l) :
    Sim w.reg (World.searchLines filters ls n w) (World.searchLines filters ls n w.plain) := by
  induction ls generalizing w n with
  | nil => exact ⟨rfl, rfl, rfl⟩
  | cons l ls ih =>
    simp only [World.searchLines]
    rw [readG_same (h l (by simp))]
    simp only [World.plain, readG_init]
    have ih := fun n => ih (w := w) n (fun l hl => h l (by simp [hl]))
    cases (Record.new.read l).res with
    | error e => exact ⟨rfl, rfl, rfl⟩
    | ok b =>
      cases b with
      | false => exact wrap _ (ih n)
      | true =>
        simp only
        split
        · exact wrap _ (ih (n + 1))
        · exact wrap _ (ih n)

omit [PyUnicode] in
theorem chomped_mem {rs ls : List Str} (h : Chomped rs ls) {r : Str} (hr : r ∈ rs) : ∃ l ∈ ls, r = l ∨ r = l ++ [10] := by
  induction rs generalizing ls with
  | nil => cases hr
  | cons x rs ih =>
    cases ls with
    | nil => exact h.elim
    | cons l ls =>
      rcases List.mem_cons.1 hr with rfl | hr
      · exact ⟨l, by simp, h.1⟩
      · obtain ⟨l', h1, h2⟩ := ih h.2 hr
        exact ⟨l', by simp [h1], h2⟩

/-- with or without its terminator -/
theorem same_eol {g : Reg} {l : Str} (h : g.Same l) : g.Same (l ++ [10]) := by
  intro hw key hk
  have hv := validate_iff.2 hw
  have hw' : WellShaped l := by
    rw [← validate_iff]
    unfold validate at hv ⊢
    rwa [strip_append_space (by intro c hc; simp at hc; subst hc; decide)] at hv
  have hl := length_line (validate_iff_isRecord.1 (validate_iff.2 hw'))
  refine h hw' key ?_
  unfold Names at hk ⊢
  have e1 : cols (l ++ [10]) 4 6 = cols l 4 6 := by
    unfold cols
    rw [List.drop_append_of_le_length (by omega), List.take_append_of_le_length (by rw [List.length_drop]; omega)]
  have e2 : ∀ i, i < 132 → col (l ++ [10]) i = col l i := by
    intro i hi
    unfold col
    rw [List.getElem?_append_left (by omega)]
  rwa [e1, e2 4 (by omega), e2 12 (by omega)] at hk

theorem lines_same {g : Reg} {s : Str} (h : ∀ ls, Lines s ls → ∀ l ∈ ls, g.Same l) : ∀ l ∈ readlines s, g.Same l := by
  intro r hr
  obtain ⟨ls, hs⟩ := lines_exist s
  obtain ⟨l, hl, rfl | rfl⟩ := chomped_mem (lines_readlines hs) hr
  · exact h ls hs _ hl
  · exact same_eol (h ls hs _ hl)

theorem step_same {w : World} {op : Op} (h : ∀ l, LineOf op l → w.reg.Same l) :
    Sim w.reg (w.step op) (w.plain.step op) := by
  cases op with
  | new i => exact ⟨rfl, rfl, rfl⟩
  | read i line =>
    simp only [World.step]
    rw [readG_same (h line .read)]
    simp only [World.plain, readG_init]
    exact ⟨rfl, rfl, rfl⟩
  | decode i output => exact ⟨rfl, rfl, rfl⟩
  | json i a b => exact ⟨rfl, rfl, rfl⟩
  | parse line output => exact parse_same (h line .parse) output
  | readFile f output =>
    obtain ⟨h1, h2, h3⟩ := readFile_same (f := f) (w := w) output fun s hs =>
      lines_same fun ls hls l hl => h l (hs ▸ .readFile hls hl)
    simp only [World.step]
    exact ⟨by simp only [h1], h2, h3⟩
  | readFolder fs =>
    cases fs with
    | none => exact ⟨rfl, rfl, rfl⟩
    | some fs =>
      obtain ⟨h1, h2, h3⟩ := readFiles_same (fs := fs) (w := w) fun s hs =>
        lines_same fun ls hls l hl => h l (.readFolder hs hls hl)
      simp only [World.step, World.readFolder]
      exact ⟨by simp only [h1], h2, h3⟩
  | search f filters =>
    cases f with
    | text s =>
      obtain ⟨h1, h2, h3⟩ := searchLines_same filters (ls := readlines s) 0 (w := w)
        (lines_same fun ls hls l hl => h l (.search hls hl))
      simp only [World.step, World.search, FileObj.readlines]
      exact ⟨by simp only [h1], h2, h3⟩
    | unopenable => exact ⟨rfl, rfl, rfl⟩
    | undecodable => exact ⟨rfl, rfl, rfl⟩

theorem uses_same {as : List RegUse} {w : World} {before : List Str} (hb : w.reg.But before) (h : Apart before as) :
    (w.uses as).2 = (w.plain.run (callsOf as)).2 := by
  induction as generalizing w before with
  | nil => rfl
  | cons a as ih =>
    have other : ∀ a : RegUse, Apart ((touched a).toList ++ before) as →
        (World.uses { w with reg := w.reg.act a } as).2 = (w.plain.run (callsOf as)).2 := by
      intro a ha
      exact ih (w := { w with reg := w.reg.act a }) (act_but hb a) ha
    cases a with
    | call op =>
      obtain ⟨h1, h2, h3⟩ := step_same (w := w) (op := op) fun l hl hw key hk =>
        hb key fun hm => h.1 key hm ⟨l, hl, hw, hk⟩
      simp only [World.uses, World.run, callsOf]
      rw [h1, ih (w := (w.step op).1) (by rw [h3]; exact hb) h.2, h2]
    | lookup key => exact other (.lookup key) h
    | ask key => exact other (.ask key) h
    | assign key d => exact other (.assign key d) h
    | remove key => exact other (.remove key) h

end Arinc
