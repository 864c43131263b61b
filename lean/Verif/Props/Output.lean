import Verif.Lemmas.Output
import Verif.Props.Chars
import Verif.Props.Json
import Verif.Spec.Encoding
import Verif.Py.Printable
/-!
# C104: output that cannot represent every character
-/
namespace Arinc
open Py Spec Spec.Std

/-! ## characters of what is printed -/

theorem fits_over {can printable : ℕ → Bool} {e : Event} (h : EventOver (fun c => can c = true) e) :
    e.fits can printable = true := by
  cases e with
  | line s => exact List.all_eq_true.2 h
  | table rows =>
    refine List.all_eq_true.2 fun r hr => ?_
    obtain ⟨h1, h2, h3⟩ := h r hr
    simp only [Bool.and_eq_true]
    refine ⟨⟨List.all_eq_true.2 h1, List.all_eq_true.2 h2⟩, ?_⟩
    split
    · next hs => rw [hs] at h3; exact List.all_eq_true.2 h3
    · rfl
  | legTime v e => exact List.all_eq_true.2 h.1
  | summary n f g => exact h.elim

section
variable {P : ℕ → Prop} (hP : ∀ c, Plain c → P c)
include hP

theorem over_hexDigit (n : ℕ) (h : n < 16) : P (hexDigit n) := by
  have : ∀ n < 16, Plain (hexDigit n) := by decide
  exact hP _ (this n h)

theorem over_xEscape (n : ℕ) : Over P (xEscape n) := by
  have hx := fun n => over_hexDigit hP (n % 16) (Nat.mod_lt _ (by decide))
  exact over_cons (hP _ (by decide)) (over_cons (hP _ (by decide)) (over_cons (hx _) (over_cons (hx _)
    fun c hc => (by cases hc))))

theorem over_uEscape (n : ℕ) : Over P (uEscape n) := by
  have hx := fun n => over_hexDigit hP (n % 16) (Nat.mod_lt _ (by decide))
  exact over_cons (hP _ (by decide)) (over_cons (hP _ (by decide)) (over_cons (hx _) (over_cons (hx _)
    (over_cons (hx _) (over_cons (hx _) fun c hc => (by cases hc))))))

theorem over_bigEscape (n : ℕ) : Over P (bigEscape n) := by
  have hx := fun n => over_hexDigit hP (n % 16) (Nat.mod_lt _ (by decide))
  exact over_cons (hP _ (by decide)) (over_cons (hP _ (by decide)) (over_cons (hx _) (over_cons (hx _)
    (over_cons (hx _) (over_cons (hx _) (over_cons (hx _) (over_cons (hx _) (over_cons (hx _) (over_cons (hx _)
      fun c hc => (by cases hc))))))))))

theorem over_reprChar (printable : ℕ → Bool) {q c : ℕ} (hq : Plain q) (hc : P c ∨ printable c = false) :
    Over P (reprChar printable q c) := by
  have one : P c → Over P [c] := fun h => over_cons h fun c hc => by cases hc
  unfold reprChar
  split
  · next h => exact over_cons (hP _ (by decide)) (one (hP c (by omega)))
  split
  · exact over_lit hP (by decide)
  split
  · exact over_lit hP (by decide)
  split
  · exact over_lit hP (by decide)
  split
  · exact over_xEscape hP c
  split
  · exact one (hP c (by omega))
  split
  · next h => exact one (hc.resolve_right (by rw [h]; decide))
  split
  · exact over_xEscape hP c
  split
  · exact over_uEscape hP c
  · exact over_bigEscape hP c

theorem over_reprStr (printable : ℕ → Bool) {s : Str} (h : Over (fun c => P c ∨ printable c = false) s) :
    Over P (reprStr printable s) := by
  have hq : Plain (reprQuote s) := by unfold reprQuote; split <;> decide
  intro c hc
  simp only [reprStr, List.mem_cons, List.mem_append, List.mem_flatMap, List.not_mem_nil, or_false] at hc
  rcases hc with rfl | ⟨d, hd, hc⟩ | rfl
  · exact hP _ hq
  · exact over_reprChar hP printable hq (h d hd) c hc
  · exact hP _ hq

theorem over_reprElems (printable : ℕ → Bool) {ss : List Str} (h : ∀ s ∈ ss, Over (fun c => P c ∨ printable c = false) s) :
    Over P (reprElems printable ss) := by
  induction ss with
  | nil => intro c hc; cases hc
  | cons s ss ih =>
    cases ss with
    | nil => exact over_reprStr hP printable (h s (by simp))
    | cons t ss =>
      exact over_append (over_append (over_reprStr hP printable (h s (by simp))) (over_lit hP (by decide)))
        (ih fun s hs => h s (by simp [hs]))

theorem over_summary (printable : ℕ → Bool) (n : ℕ) {f : Filters} (h : ∀ c, InFilter c f → P c) {t : Str}
    (ht : summaryText printable n f = some t) : Over P t := by
  cases f with
  | str s =>
    cases ht
    exact over_append (over_append (over_append (over_lit hP (by decide)) (over_natStr hP _)) (over_lit hP (by decide)))
      fun c hc => h c hc
  | list ss =>
    cases ht
    refine over_append (over_append (over_append (over_lit hP (by decide)) (over_natStr hP _)) (over_lit hP (by decide)))
      (over_cons (hP _ (by decide)) (over_append (over_reprElems hP printable fun s hs c hc => Or.inl (h c ⟨s, hs, hc⟩))
        (over_lit hP (by decide))))
  | other => cases ht

end

/-- C104: A text can be printed if the encoding of the output has all characters that are shown. (The exception in a
    complaint about a leg time names one character of the value. For the summary of `search` see below.) -/
theorem C104_text {can : ℕ → Bool} (hc : HasAscii can) (printable : ℕ → Bool) {e : Event}
    (hs : ∀ n f g, e ≠ .summary n f g) (hl : ∀ v s, e = .legTime v (.notInt s) → ∀ c ∈ s, c ∈ v) :
    e.fits can printable = true ↔ ∀ s, Shown e s → ∀ c ∈ s, can c = true := by
  constructor
  · intro h
    refine fun s hs' => over_shown (P := fun c => can c = true) hc ?_ hs'
    cases e with
    | line s => exact List.all_eq_true.1 h
    | table rows =>
      intro r hr
      have := List.all_eq_true.1 h r hr
      simp only [Bool.and_eq_true] at this
      refine ⟨List.all_eq_true.1 this.1.1, List.all_eq_true.1 this.1.2, ?_⟩
      cases hd : r.decoded with
      | str s => rw [hd] at this; exact List.all_eq_true.1 this.2
      | none => trivial
      | float x => trivial
    | legTime v e =>
      refine ⟨List.all_eq_true.1 h, ?_⟩
      cases e with
      | notInt s => exact fun c hc => List.all_eq_true.1 h c (hl v s rfl c hc)
      | tooShort => trivial
    | summary n f g => exact absurd rfl (hs n f g)
  · intro h
    cases e with
    | line s => exact List.all_eq_true.2 (h s .line)
    | table rows =>
      refine List.all_eq_true.2 fun r hr => ?_
      simp only [Bool.and_eq_true]
      refine ⟨⟨List.all_eq_true.2 (h _ (.name hr)), List.all_eq_true.2 (h _ (.value hr))⟩, ?_⟩
      split
      · next hd => exact List.all_eq_true.2 (h _ (.cell hr (by rw [hd]; exact .str)))
      · rfl
    | legTime v e => exact List.all_eq_true.2 (h v .legTime)
    | summary n f g => exact absurd rfl (hs n f g)

/-- C104: A summary can be printed if the characters of the filter are in the encoding of the output; those in a list
    are escaped if they are not printable, and do not matter. -/
theorem C104_summary {can : ℕ → Bool} (hc : HasAscii can) (printable : ℕ → Bool) (n : ℕ) (g : Bool) :
    (∀ s, (Event.summary n (.str s) g).fits can printable = true ↔ ∀ c ∈ s, can c = true) ∧
    ∀ ss, (∀ s ∈ ss, ∀ c ∈ s, can c = true ∨ printable c = false) →
      (Event.summary n (.list ss) g).fits can printable = true := by
  have pre : Over (fun c => can c = true) (py!"Found " ++ natStr n ++ py!" records that contain ") :=
    over_append (over_append (over_lit hc (by decide)) (over_natStr hc _)) (over_lit hc (by decide))
  refine ⟨fun s => ⟨fun h c hcs => ?_, fun h => ?_⟩, fun ss h => ?_⟩
  · simp only [Event.fits, summaryText, Filters.shown, Option.map_some, List.all_eq_true] at h
    exact h c (by simp [hcs])
  · simp only [Event.fits, summaryText, Filters.shown, Option.map_some]
    exact List.all_eq_true.2 (over_append pre h)
  · simp only [Event.fits, summaryText, Filters.shown, Option.map_some]
    exact List.all_eq_true.2 (over_append pre (over_cons (hc _ (by decide))
      (over_append (over_reprElems (P := fun c => can c = true) hc printable h) (over_lit hc (by decide)))))

/-! ## objects -/

/-- the texts of an object -/
structure RecOver (P : ℕ → Prop) (r : Record) : Prop where
  ident : Over P r.ident
  raw : Over P r.raw
  fields : ∀ f ∈ r.fields, Over P f.name ∧ Over P f.value

theorem layout_names : registry.all (fun p => p.2.layouts.all fun l => l.all fun s => s.name.all (Plain ·)) = true := by
  decide +kernel

theorem definition_names : registry.all (fun p => (p.2.name.getD []).all (Plain ·)) = true := by decide +kernel

section
variable [PyUnicode]

theorem read_recOver {P : ℕ → Prop} (hP : ∀ c, Plain c → P c) {r : Record} (hr : RecOver P r) {line : Str}
    (hl : Over P line) : RecOver P (r.read line).obj ∧ ∀ e ∈ (r.read line).out, EventOver P e := by
  rcases read_cases r line with ⟨_, h'⟩ | ⟨_, _, h'⟩ | ⟨hrec, k, d, hres, hd, hf, h'⟩
  · rw [h']; exact ⟨hr, fun e he => by cases he⟩
  · rw [h']; exact ⟨⟨hr.ident, over_strip hl, hr.fields⟩, fun e he => by cases he⟩
  · rw [h']
    have hk : Over P k := over_section hP (resolve_iff.1 hres)
    unfold Record.readAs
    simp only
    split
    · next hc =>
      refine ⟨⟨hk, over_strip hl, hr.fields⟩, fun e he => ?_⟩
      have hn := over_lit hP (List.all_eq_true.1 definition_names _ (lookup_mem hd))
      have hcc : Over P (r.enter line k d).continuation := by
        obtain ⟨i, hi⟩ := Option.isSome_iff_exists.1 hc.1
        simp only [Record.enter, hi]
        intro c hc
        simp only [col, Option.mem_toList] at hc
        exact over_strip hl c (List.mem_of_getElem? hc)
      simp only [contDiag, List.mem_cons, List.not_mem_nil, or_false] at he
      rcases he with rfl | rfl | rfl
      · exact over_append (over_append (over_append (over_append (over_lit hP (by decide)) hn)
          (over_lit hP (by decide))) hcc) (over_lit hP (by decide))
      · exact over_lit hP (by decide)
      · exact over_append (over_lit hP (by decide)) (over_strip hl)
    · unfold Record.finish
      cases hs : (d.branch (r.enter line k d).primary).select line with
      | error e => exact ⟨⟨hk, over_strip hl, hr.fields⟩, fun e he => by cases he⟩
      | ok l =>
        refine ⟨⟨hk, over_strip hl, fun f hf' => ?_⟩, fun e he => by cases he⟩
        rcases select_mem hs with hm | hm
        · obtain ⟨s, hs, rfl⟩ := List.mem_map.1 hf'
          have h1 := List.all_eq_true.1 layout_names _ (lookup_mem hd)
          have h2 := List.all_eq_true.1 (List.all_eq_true.1 h1 l (branch_layouts hm)) s hs
          exact ⟨over_lit hP h2, over_pick hl _⟩
        · subst hm; cases hf'

theorem decodeRows_over {P : ℕ → Prop} (hP : ∀ c, Plain c → P c) {rec : RecInfo} (hi : Over P rec.ident)
    (hr : Over P rec.raw) {fs : List Field} (hf : ∀ f ∈ fs, Over P f.name ∧ Over P f.value) {legs : Legs}
    (hl : Grown legs) : (∀ e ∈ (decodeRows rec fs legs).out, EventOver P e) ∧
      ∀ rows, (decodeRows rec fs legs).res = .ok rows → EventOver P (.table rows) := by
  induction fs generalizing legs with
  | nil =>
    refine ⟨fun e he => (by cases he), fun rows h => ?_⟩
    cases h
    intro r hr; cases hr
  | cons f fs ih =>
    obtain ⟨h1, h2⟩ := runDec_over hP (hf f (by simp)).2 hi hr hl f.dec
    obtain ⟨h3, h4⟩ := ih (fun f h => hf f (by simp [h])) (legs := (runDec f.dec f.value rec legs).legs)
      (runDec_legs _ _ _ hl).2.2
    simp only [decodeRows]
    cases hd : (runDec f.dec f.value rec legs).res with
    | error e => exact ⟨h2, fun rows h => by cases h⟩
    | ok v =>
      refine ⟨fun e he => ?_, fun rows h => ?_⟩
      · rcases List.mem_append.1 he with he | he
        · exact h2 e he
        · exact h3 e he
      · simp only at h
        cases hrr : (decodeRows rec fs (runDec f.dec f.value rec legs).legs).res with
        | error e => rw [hrr] at h; cases h
        | ok rs =>
          rw [hrr] at h
          cases h
          intro r hr
          rcases List.mem_cons.1 hr with rfl | hr
          · exact ⟨(hf f (by simp)).1, over_append (over_append (over_lit hP (by decide)) (hf f (by simp)).2)
              (over_lit hP (by decide)), h1 v hd⟩
          · exact h4 rs hrr r hr

theorem decode_over {P : ℕ → Prop} (hP : ∀ c, Plain c → P c) {r : Record} (h : RecOver P r) (output : Bool) {legs : Legs}
    (hl : Grown legs) : ∀ e ∈ (r.decode output legs).out, EventOver P e := by
  obtain ⟨h1, h2⟩ := decodeRows_over hP (rec := r.info) h.ident h.raw h.fields hl
  unfold Record.decode
  simp only
  split
  · exact h1
  · next rows hr =>
    intro e he
    simp only at he
    split at he
    · rcases List.mem_append.1 he with he | he
      · exact h1 e he
      · rw [List.mem_singleton] at he; rw [he]; exact h2 rows hr
    · exact h1 e he

theorem file_over {P : ℕ → Prop} (hP : ∀ c, Plain c → P c) {f : FileObj} (hf : ∀ s, f = .text s → Over P s)
    (output : Bool) {legs : Legs} (hl : Grown legs) : ∀ e ∈ (readFile f output legs).out, EventOver P e := by
  cases f with
  | text s =>
    obtain ⟨ls, hs⟩ := lines_exist s
    exact fileDoes_over hP ((C86_read_file hs output hl _ _).1 ⟨rfl, rfl⟩)
      fun l hl c hc => hf s rfl c (lines_sub hs l hl c hc)
  | unopenable => intro e he; cases he
  | undecodable => intro e he; cases he

/-- what a call prints can be printed if its texts, its filter and its object can -/
theorem step_fits {can : ℕ → Bool} (hc : HasAscii can) (printable : ℕ → Bool) {op : Op} (h : Covers can op) {w : World}
    (ho : w.OK) (hw : ∀ i, RecOver (fun c => can c = true) (w.objs i)) :
    (∀ e ∈ printedBy (w.step op).2, e.fits can printable = true) ∧
      ∀ i, RecOver (fun c => can c = true) ((w.step op).1.objs i) := by
  have hnew : RecOver (fun c => can c = true) Record.new :=
    ⟨fun c hc => (by cases hc), fun c hc => (by cases hc), fun f hf => (by cases hf)⟩
  cases op with
  | new i =>
    refine ⟨fun e he => (by cases he), fun j => ?_⟩
    simp only [World.step, World.set]
    split
    · exact hnew
    · exact hw j
  | read i line =>
    obtain ⟨h1, h2⟩ := read_recOver (P := fun c => can c = true) hc (hw i) (fun c hc => h line (by simp [textsOf]) c hc)
    simp only [World.step, ho.reg, readG_init]
    refine ⟨fun e he => fits_over (h2 e he), fun j => ?_⟩
    simp only [World.set]
    split
    · exact h1
    · exact hw j
  | decode i output =>
    exact ⟨fun e he => fits_over (decode_over (P := fun c => can c = true) hc (hw i) output ho.legs e he), hw⟩
  | json i output single_line =>
    refine ⟨fun e he => ?_, hw⟩
    have hp := C40_printable (w.objs i) output
    simp only [World.step, printedBy, Record.json] at he
    cases output with
    | false => cases he
    | true =>
      simp only [if_true, List.mem_singleton] at he
      subst he
      refine List.all_eq_true.2 fun c hcc => hc c ?_
      cases single_line with
      | true => have := hp.1 c hcc; omega
      | false => have := hp.2 c hcc; omega
  | parse line output =>
    simp only [World.step, parse_world ho line output]
    exact ⟨fun e he => fits_over (lineDoes_over (P := fun c => can c = true) hc
      (fun c hc => h line (by simp [textsOf]) c hc) (lineDoes_parse line output ho.legs) e he), hw⟩
  | readFile f output =>
    simp only [World.step, readFile_world f output ho]
    exact ⟨fun e he => fits_over (file_over (P := fun c => can c = true) hc
      (fun s hs c hc => h s (by simp [textsOf, hs]) c hc) output ho.legs e he), hw⟩
  | readFolder fs =>
    simp only [World.step, readFolder_world fs ho]
    refine ⟨fun e he => fits_over ?_, hw⟩
    cases fs with
    | none => cases he
    | some fs =>
      exact folderDoes_over (P := fun c => can c = true) hc ((C86_read_folder fs ho.legs _ _).1 ⟨rfl, rfl⟩)
        (fun s hs c hc => h s (by simp only [textsOf, List.mem_append, List.mem_filterMap]; exact Or.inl ⟨_, hs, rfl⟩) c hc)
        e he
  | search f filters =>
    simp only [World.step, search_world f filters ho]
    refine ⟨fun e he => ?_, hw⟩
    cases f with
    | text s =>
      obtain ⟨ls, hs⟩ := lines_exist s
      have hr := (C80_search hs filters (search (.text s) filters).1 (search (.text s) filters).2).1 rfl
      rcases searchRun_over (P := fun c => can c = true) hc hr
        (fun l hl c hc => h s (by simp [textsOf]) c (lines_sub hs l hl c hc)) e he with h' | ⟨n, g, rfl⟩
      · exact fits_over h'
      · have hin : ∀ c, InFilter c filters → can c = true := by
          intro c hin
          cases filters with
          | str t => exact h t (by simp [filtersOf]) c hin
          | list ts => obtain ⟨t, ht, hin⟩ := hin; exact h t (by simp [filtersOf, ht]) c hin
          | other => cases hin
        simp only [Event.fits]
        split
        · next t ht => exact List.all_eq_true.2 (over_summary (P := fun c => can c = true) hc printable n hin ht)
        · rfl
    | unopenable => cases he
    | undecodable => cases he

/-- C104: What a sequence of calls does on an output that cannot represent some characters: each call does and prints
    what it would elsewhere, up to the first text that cannot be printed, and calls after it are not affected. -/
theorem C104_history (fits : Event → Bool) (ops : List Op) :
    List.Forall₂ (Cut fits) (outcomes ops) (World.init.runOn fits ops).2 := by
  obtain ⟨h1, h2⟩ := runOn_cut init_ok init_ok rfl fits ops
  exact List.forall₂_iff_zip.2 ⟨h1, fun {a b} h => h2 (a, b) h⟩

/-- C104: if all characters of the files, lines and filters are characters of the output's encoding, nothing fails. -/
theorem C104_fits {can : ℕ → Bool} (hc : HasAscii can) (printable : ℕ → Bool) {ops : List Op}
    (h : ∀ op ∈ ops, Covers can op) : (World.init.runOn (Event.fits can printable) ops).2 =
      (outcomes ops).map fun o => .ended (resultOf o) (printedBy o) := by
  have H : ∀ (ops : List Op) {w w' : World}, w.OK → w'.OK → w.objs = w'.objs →
      (∀ i, RecOver (fun c => can c = true) (w.objs i)) → (∀ op ∈ ops, Covers can op) →
      (w'.runOn (Event.fits can printable) ops).2 = (w.run ops).2.map fun o => .ended (resultOf o) (printedBy o) := by
    intro ops
    induction ops with
    | nil => intro w w' _ _ _ _ _; rfl
    | cons op ops ih =>
      intro w w' ho ho' he hw hops
      obtain ⟨h1, h2, h3⟩ := stepOn_cut ho' (Event.fits can printable) op
      obtain ⟨h4, h5⟩ := step_objs ho ho' he op
      obtain ⟨h6, h7⟩ := step_fits hc printable (hops op (by simp)) ho hw
      have h8 : (w'.stepOn (Event.fits can printable) op).2 = .ended (resultOf (w.step op).2) (printedBy (w.step op).2) := by
        rw [← h4] at h1
        generalize (w'.stepOn (Event.fits can printable) op).2 = x at h1
        cases h1 with
        | whole => rfl
        | @cut out rest e h ho hx =>
          have := h6 e (by rw [h]; simp)
          rw [hx] at this; cases this
      simp only [World.run, World.runOn, List.map_cons]
      rw [h8, ih (step_ok ho op) h3 (h5.trans h2.symm) h7 fun op hop => hops op (by simp [hop])]
  exact H ops init_ok init_ok rfl
    (fun i => ⟨fun c hc => (by cases hc), fun c hc => (by cases hc), fun f hf => (by cases hf)⟩) h

/-- C104: ASCII can be printed wherever the encoding of the output extends it. -/
theorem C104_ascii {can : ℕ → Bool} (hc : ∀ c, c < 128 → can c = true) (printable : ℕ → Bool) {ops : List Op}
    (h : ∀ op ∈ ops, ∀ s ∈ textsOf op ++ filtersOf op, Ascii s) :
    (World.init.runOn (Event.fits can printable) ops).2 =
      (outcomes ops).map fun o => .ended (resultOf o) (printedBy o) :=
  C104_fits (fun c h => hc c (by omega)) printable fun op hop s hs c hcs => hc c (h op hop s hs c hcs)

/-- C104: whatever a file in UTF-8 contains can be printed where the output is UTF-8. -/
theorem C104_utf8 (printable : ℕ → Bool) {s : Str} {b : List ℕ} (hb : Utf8 s b) (output : Bool) {filters : Filters}
    (hf : ∀ c, InFilter c filters → inUtf8 c = true) :
    (World.init.runOn (Event.fits inUtf8 printable) [.readFile (.text s) output, .search (.text s) filters]).2 =
      (outcomes [.readFile (.text s) output, .search (.text s) filters]).map fun o =>
        .ended (resultOf o) (printedBy o) := by
  have hs : ∀ c ∈ s, inUtf8 c = true := by
    clear hf
    induction hb with
    | nil => intro c hc; cases hc
    | cons h t ih =>
      intro c hc
      rcases List.mem_cons.1 hc with rfl | hc
      · have : ¬ (0xD800 ≤ c ∧ c ≤ 0xDFFF) ∧ c ≤ 0x10FFFF := by cases h <;> omega
        simp only [inUtf8, Bool.and_eq_true, Bool.not_eq_true', decide_eq_true_eq, Bool.and_eq_false_iff,
          decide_eq_false_iff_not]
        omega
      · exact ih c hc
  refine C104_fits (fun c hc => ?_) printable fun op hop t ht c hct => ?_
  · simp only [inUtf8, Bool.and_eq_true, Bool.not_eq_true', decide_eq_true_eq, Bool.and_eq_false_iff,
      decide_eq_false_iff_not]
    omega
  · simp only [List.mem_cons, List.not_mem_nil, or_false] at hop
    rcases hop with rfl | rfl
    · simp only [textsOf, filtersOf, List.append_nil, List.mem_singleton] at ht
      rw [ht] at hct; exact hs c hct
    · cases filters <;> simp only [textsOf, filtersOf, List.mem_append, List.mem_singleton, List.not_mem_nil, or_false] at ht
      · rcases ht with rfl | rfl
        · exact hs c hct
        · exact hf c hct
      · rcases ht with rfl | ht
        · exact hs c hct
        · exact hf c ⟨t, ht, hct⟩
      · rw [ht] at hct; exact hs c hct

/-- C104: so can a file in a code page where the output is in the same code page. -/
theorem C104_page {t : CodePage} (ht : ExtendsAscii t) {can : ℕ → Bool} (hc : ∀ x c, t x = some c → can c = true)
    (printable : ℕ → Bool) {s : Str} {b : List ℕ} (hb : InPage t s b) (output : Bool) :
    (World.init.runOn (Event.fits can printable) [.readFile (.text s) output]).2 =
      (outcomes [.readFile (.text s) output]).map fun o => .ended (resultOf o) (printedBy o) := by
  have hs : ∀ c ∈ s, can c = true := by
    induction hb with
    | nil => intro c hc; cases hc
    | cons h r ih =>
      intro c hc'
      rcases List.mem_cons.1 hc' with rfl | hc'
      · exact hc _ _ h
      · exact ih c hc'
  refine C104_fits (fun c h => hc c c (ht.ascii c (by omega))) printable fun op hop t ht c hct => ?_
  rw [List.mem_singleton] at hop
  subst hop
  simp only [textsOf, filtersOf, List.append_nil, List.mem_singleton] at ht
  rw [ht] at hct; exact hs c hct

end

section
attribute [local instance] Py.Tables.cpython311

/-- an output in ASCII -/
def asciiOnly (c : ℕ) : Bool := c < 128

/-- C104: That a record with a character the output lacks costs no other record is false: on an ASCII output
    `read_file` and `search` stop at an airport whose name begins with É, without the record after it. -/
theorem C104_refuted :
    let s := Sample.airport.set 93 201 ++ [10] ++ Sample.vhf
    (World.init.runOn (Event.fits asciiOnly Py.Tables.printable311)
      [.readFile (.text s) true, .search (.text s) (.str (py!"S"))]).2 = [.encodeError [], .encodeError []] ∧
    (outcomes [.readFile (.text s) true, .search (.text s) (.str (py!"S"))]).map
      (fun o => (printedBy o).length) = [2, 3] := by
  decide +kernel

/-! ## Examples -/

/-- an airport whose name begins with É can be printed in Latin-1 -/
example : HasAscii (fun c => c < 256) ∧ ∀ op ∈ [Op.parse (Sample.airport.set 93 201) true],
    Covers (fun c => c < 256) op := by
  refine ⟨fun c hc => by simp; omega, fun op hop => ?_⟩
  rw [List.mem_singleton] at hop
  subst hop
  unfold Covers
  decide +kernel

/-- the calls after it are as usual -/
example : ((World.init.runOn (Event.fits asciiOnly Py.Tables.printable311)
    [.parse (Sample.airport.set 93 201) true, .parse Sample.vhf true]).2.map fun x => match x with
      | .ended (.bool (.ok true)) out => out.length
      | _ => 0) = [0, 1] := by decide +kernel

/-- without output nothing fails -/
example : (World.init.runOn (Event.fits asciiOnly Py.Tables.printable311) [.parse (Sample.airport.set 93 201) false]).2
    = [.ended (.bool (.ok true)) []] := by decide +kernel

/-- a filter in a list is escaped if it is not printable -/
example : Event.fits asciiOnly Py.Tables.printable311 (.summary 0 (.list [[0x200B]]) false) = true ∧
    Event.fits asciiOnly Py.Tables.printable311 (.summary 0 (.str [0x200B]) false) = false := by decide +kernel

end
end Arinc
