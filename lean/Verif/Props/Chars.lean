import Verif.Spec.Chars
import Verif.Lemmas.Over
import Verif.Props.Repr
/-!
# C88: no characters are invented
-/
namespace Arinc
open Py Spec Spec.Std

theorem written_plain {n : ℕ} {k : ℤ} {s : Str} (h : Written n k s) : ∀ c ∈ s, Plain c := by
  have zero : ∀ (j : ℕ), ∀ c ∈ List.replicate j 48, Plain c := by
    intro j c hc; rw [List.mem_replicate] at hc; unfold Plain; omega
  cases h with
  | @whole j ds hd hl =>
    intro c hc
    simp only [List.mem_append, List.mem_cons, List.not_mem_nil, or_false] at hc
    rcases hc with (hc | hc) | hc | hc
    · have := hd.1.2.1 c hc; unfold Plain; omega
    · exact zero j c hc
    · unfold Plain; omega
    · unfold Plain; omega
  | @point ip fp hd hi hf hl =>
    intro c hc
    simp only [List.mem_append, List.mem_cons, List.not_mem_nil, or_false] at hc
    rcases hc with (hc | hc) | hc
    · have := hd.1.2.1 c (by simp [hc]); unfold Plain; omega
    · unfold Plain; omega
    · have := hd.1.2.1 c (by simp [hc]); unfold Plain; omega
  | @small j ds hd hj =>
    intro c hc
    simp only [List.mem_append, List.mem_cons, List.not_mem_nil, or_false] at hc
    rcases hc with ((hc | hc) | hc) | hc
    · unfold Plain; omega
    · unfold Plain; omega
    · exact zero j c hc
    · have := hd.1.2.1 c hc; unfold Plain; omega
  | @exponent _ c ds ex neg e hd hk he hex hex2 =>
    intro d hd'
    have hc := hd.1.2.1 c (by simp)
    simp only [List.mem_append, List.mem_cons, List.not_mem_nil, or_false] at hd'
    rcases hd' with hd' | ((hd' | hd') | hd') | hd'
    · unfold Plain; omega
    · split at hd'
      · cases hd'
      · simp only [List.mem_append, List.mem_cons, List.not_mem_nil, or_false] at hd'
        rcases hd' with hd' | hd'
        · unfold Plain; omega
        · have := hd.1.2.1 d (by simp [hd']); unfold Plain; omega
    · unfold Plain; omega
    · split at hd' <;> simp at hd' <;> (unfold Plain; omega)
    · have := hex.2.1 d hd'; unfold Plain; omega

theorem short_plain {x : Dbl} {s : Str} (h : ShortText x s) : ∀ c ∈ s, Plain c := by
  have sign : ∀ (neg : Bool), ∀ c ∈ (if neg = true then py!"-" else []), Plain c := by decide
  cases h with
  | nan => decide
  | inf => decide
  | negInf => decide
  | @zero neg e => cases neg <;> decide
  | @fin neg m n e k s h0 back short near even hs =>
    intro c hc
    rcases List.mem_append.1 hc with hc | hc
    · exact sign neg c hc
    · exact written_plain hs c hc

theorem over_shown {P : Nat → Prop} (hP : ∀ c, Plain c → P c) {e : Event} (he : EventOver P e) {s : Str}
    (h : Shown e s) : Over P s := by
  cases h with
  | line => exact he
  | name h => exact (he _ h).1
  | value h => exact (he _ h).2.1
  | @cell rows r s h hc =>
    have := (he _ h).2.2
    generalize r.decoded = p at *
    cases hc with
    | str => exact this
    | none => exact over_lit hP (by decide)
    | float hx => exact fun c hc => hP c (short_plain hx c hc)
  | legTime => exact he.1
  | legError => exact he.2
  | filter => exact he.elim
  | filters => exact he.elim

theorem over_pick {P : Nat → Prop} {line : Str} (h : Over P line) (cs : List ℕ) : Over P (pick line cs) := by
  intro c hc
  simp only [pick, List.mem_flatMap, col, Option.mem_toList] at hc
  obtain ⟨i, _, hi⟩ := hc
  exact h c (List.mem_of_getElem? hi)

theorem over_padded {P : Nat → Prop} {line t : Str} (h : Over P line) (hp : Padded line t) : Over P t := by
  obtain ⟨pre, post, rfl, _, _⟩ := hp
  exact over_sub h (by intro c hc; simp [hc])

theorem over_section {P : Nat → Prop} (hP : ∀ c, Plain c → P c) {line k : Str} (h : Resolves line k) : Over P k := by
  have : ∀ k ∈ supported, k.all (Plain ·) = true := by decide
  cases h with
  | byPair h => exact over_lit hP (this _ h)
  | bySplit _ h => exact over_lit hP (this _ h)

theorem names_plain : kindsOf.all (fun e => (e.2.2.1.map (·.2) ++ e.2.2.2.toList).all (fun fs =>
    fs.all fun f => f.name.all (Plain ·))) = true := by decide +kernel

section
variable [PyUnicode]

theorem tells_over {P : Nat → Prop} (hP : ∀ c, Plain c → P c) {k t line : Str} (hline : Over P line) (ht : Over P t)
    (hk : Over P k) {fs : List StdField} (hw : ∀ f ∈ fs, fullWidth f.shown.2 (pick line f.shown.1).length = true)
    (hn : ∀ f ∈ fs, Over P f.name) {res : Except Exc (List Row)} {out : List Event} (h : Tells k t line fs res out) :
    (∀ e ∈ out, EventOver P e) ∧ ∀ rows, res = .ok rows → EventOver P (.table rows) := by
  have gives : ∀ {f : StdField} {r : Except Exc PyVal} {o : List Event},
      fullWidth f.shown.2 (pick line f.shown.1).length = true → Gives k t f.shown.2 (pick line f.shown.1) r o →
      ResOver P r ∧ ∀ e ∈ o, EventOver P e := by
    intro f r o hw h
    obtain ⟨h1, h2⟩ := (gives_iff f.shown.2 _ ⟨k, t⟩ grown_init hw r o).1 h
    rw [← h1, ← h2]
    exact runDec_over hP (over_pick hline _) hk ht grown_init _
  induction h with
  | nil =>
    refine ⟨fun e he => (by cases he), fun rows hr => ?_⟩
    cases hr
    intro r hr; cases hr
  | raised h =>
    exact ⟨(gives (hw _ (by simp)) h).2, fun rows hr => by cases hr⟩
  | @shown f fs x rows out out' h r ih =>
    obtain ⟨h1, h2⟩ := gives (hw _ (by simp)) h
    obtain ⟨h3, h4⟩ := ih (fun f hf => hw f (by simp [hf])) (fun f hf => hn f (by simp [hf]))
    refine ⟨fun e he => ?_, fun rows' hr => ?_⟩
    · rcases List.mem_append.1 he with he | he
      · exact h2 e he
      · exact h3 e he
    · cases hr
      intro r hr
      rcases List.mem_cons.1 hr with rfl | hr
      · exact ⟨hn _ (by simp), over_append (over_append (over_lit hP (by decide)) (over_pick hline _))
          (over_lit hP (by decide)), h1 _ rfl⟩
      · exact h4 _ rfl r hr
  | @later f fs x e out out' h r ih =>
    obtain ⟨_, h2⟩ := gives (hw _ (by simp)) h
    obtain ⟨h3, _⟩ := ih (fun f hf => hw f (by simp [hf])) (fun f hf => hn f (by simp [hf]))
    refine ⟨fun e he => ?_, fun rows' hr => by cases hr⟩
    rcases List.mem_append.1 he with he | he
    · exact h2 e he
    · exact h3 e he

theorem record_over {P : Nat → Prop} (hP : ∀ c, Plain c → P c) {line t k : Str} {fs : List StdField}
    (hline : Over P line) (h : FateOf [] line (.record t k fs)) :
    Over P t ∧ Over P k ∧ ∀ f ∈ fs, Over P f.name := by
  cases h with
  | record h =>
    refine ⟨over_padded hline h.padded, over_section hP h.section_, fun f hf => ?_⟩
    rw [h.fields] at hf
    obtain ⟨e, he, l, hl, hf⟩ := fieldsOf_mem hf
    have h1 := List.all_eq_true.1 (List.all_eq_true.1 (List.all_eq_true.1 names_plain e he) l hl) f hf
    exact over_lit hP h1

theorem prints_over {P : Nat → Prop} (hP : ∀ c, Plain c → P c) {line : Str} {f : Fate}
    (hline : Over P line) (h : FateOf [] line f) : ∀ e ∈ f.prints, EventOver P e := by
  cases h with
  | @badNumber t k name i hp ht hk hi h hn =>
    have hname : Over P name := by
      unfold recordName at hn
      exact over_lookup hP (by unfold AsciiTable; decide +kernel) hn
    have htt := over_padded hline hp
    intro e he
    simp only [Fate.prints, List.mem_cons, List.not_mem_nil, or_false] at he
    have hc : Over P (col t i) := by
      intro c hc
      simp only [col, Option.mem_toList] at hc
      exact htt c (List.mem_of_getElem? hc)
    rcases he with rfl | rfl | rfl
    · exact over_append (over_append (over_append (over_append (over_lit hP (by decide)) hname)
        (over_lit hP (by decide))) hc) (over_lit hP (by decide))
    · exact over_lit hP (by decide)
    · exact over_append (over_lit hP (by decide)) htt
  | _ => intro e he; cases he

theorem lineDoes_over {P : Nat → Prop} (hP : ∀ c, Plain c → P c) {output : Bool} {line : Str} (hline : Over P line)
    {res : Except Exc Bool} {out : List Event} (h : LineDoes output line res out) : ∀ e ∈ out, EventOver P e := by
  cases h with
  | shown hf ht =>
    obtain ⟨h1, h2, h3⟩ := record_over hP hline hf
    obtain ⟨h4, h5⟩ := tells_over hP hline h1 h2 (record_width hf) h3 ht
    intro e he
    rcases List.mem_append.1 he with he | he
    · exact h4 e he
    · cases output
      · cases he
      · simp only [if_true, List.mem_singleton] at he
        rw [he]; exact h5 _ rfl
  | failed hf ht =>
    obtain ⟨h1, h2, h3⟩ := record_over hP hline hf
    exact (tells_over hP hline h1 h2 (record_width hf) h3 ht).1
  | other hf _ => exact prints_over hP hline hf

omit [PyUnicode] in
theorem lines_sub {s : Str} {ls : List Str} (h : Lines s ls) : ∀ l ∈ ls, ∀ c ∈ l, c ∈ s := by
  induction h with
  | nil => intro l hl; cases hl
  | last h hne => intro l hl c hc; rw [List.mem_singleton] at hl; rwa [← hl]
  | lf h t ih | crlf h t ih | cr h t hs ih =>
    intro l hl c hc
    rcases List.mem_cons.1 hl with rfl | hl
    · simp [hc]
    · have := ih l hl c hc
      simp [this]

theorem fileDoes_over {P : Nat → Prop} (hP : ∀ c, Plain c → P c) {output : Bool} {ls : List Str}
    {res : Except Exc Unit} {out : List Event} (h : FileDoes output ls res out) (hls : ∀ l ∈ ls, Over P l) :
    ∀ e ∈ out, EventOver P e := by
  induction h with
  | done => intro e he; cases he
  | line h t ih =>
    intro e he
    rcases List.mem_append.1 he with he | he
    · exact lineDoes_over hP (hls _ (by simp)) h e he
    · exact ih (fun l hl => hls l (by simp [hl])) e he
  | stop h => exact lineDoes_over hP (hls _ (by simp)) h

theorem folderDoes_over {P : Nat → Prop} (hP : ∀ c, Plain c → P c) {fs : List FileObj}
    {res : Except Exc Unit} {out : List Event} (h : FolderDoes fs res out) (hfs : ∀ s, .text s ∈ fs → Over P s) :
    ∀ e ∈ out, EventOver P e := by
  induction h with
  | done => intro e he; cases he
  | file hs h t ih =>
    intro e he
    have hl := fun l hl => over_sub (hfs _ (by simp)) (lines_sub hs l hl)
    rcases List.mem_append.1 he with he | he
    · exact fileDoes_over hP h hl e he
    · exact ih (fun l hl => hfs l (by simp [hl])) e he
  | stop hs h => exact fileDoes_over hP h fun l hl => over_sub (hfs _ (by simp)) (lines_sub hs l hl)
  | unopenable => intro e he; cases he
  | undecodable => intro e he; cases he

theorem searchRun_over {P : Nat → Prop} (hP : ∀ c, Plain c → P c) {filters : Filters} {n : ℕ} {ls : List Str}
    {res : Except Exc Unit} {out : List Event} (h : SearchRun filters n ls res out) (hls : ∀ l ∈ ls, Over P l) :
    ∀ e ∈ out, EventOver P e ∨ ∃ n g, e = .summary n filters g := by
  induction h with
  | done n => intro e he; rw [List.mem_singleton] at he; exact Or.inr ⟨_, _, he⟩
  | found h hm r ih =>
    intro e he
    rcases List.mem_cons.1 he with rfl | he
    · exact Or.inl (record_over hP (hls _ (by simp)) h).1
    · exact ih (fun l hl => hls l (by simp [hl])) e he
  | other h hm r ih => exact ih (fun l hl => hls l (by simp [hl]))
  | skip h hf r ih =>
    intro e he
    rcases List.mem_append.1 he with he | he
    · exact Or.inl (prints_over hP (hls _ (by simp)) h e he)
    · exact ih (fun l hl => hls l (by simp [hl])) e he
  | stop h => intro e he; cases he

/-- C88: every character that `parse` prints is a printable character of ASCII, a line end, or occurs in the line. -/
theorem C88_parse (line : Str) (output : Bool) {legs : Legs} (hl : Grown legs) {c : ℕ}
    (h : Seen (parse line output legs).out c) : Plain c ∨ c ∈ line := by
  obtain ⟨e, he, s, hs, hc⟩ := h
  have hP : ∀ c, Plain c → Plain c ∨ c ∈ line := fun c h => Or.inl h
  exact over_shown (P := fun c => Plain c ∨ c ∈ line) hP
    (lineDoes_over hP (fun c hc => Or.inr hc) (lineDoes_parse line output hl) e he) hs c hc

/-- C88: every character that `read_file` prints is a printable character of ASCII, a line end, or occurs in the file. -/
theorem C88_read_file {s : Str} {ls : List Str} (hs : Lines s ls) (output : Bool) {legs : Legs} (hl : Grown legs) {c : ℕ}
    (h : Seen (readFile (.text s) output legs).out c) : Plain c ∨ c ∈ s := by
  obtain ⟨e, he, t, ht, hc⟩ := h
  have hP : ∀ c, Plain c → Plain c ∨ c ∈ s := fun c h => Or.inl h
  exact over_shown (P := fun c => Plain c ∨ c ∈ s) hP
    (fileDoes_over hP ((C86_read_file hs output hl _ _).1 ⟨rfl, rfl⟩)
      (fun l hl c hc => Or.inr (lines_sub hs l hl c hc)) e he) ht c hc

/-- C88: every character that `read_folder` prints is a printable character of ASCII, a line end, or occurs in one of the files. -/
theorem C88_read_folder (fs : List FileObj) {legs : Legs} (hl : Grown legs) {c : ℕ}
    (h : Seen (readFolder (some fs) legs).out c) : Plain c ∨ ∃ s, .text s ∈ fs ∧ c ∈ s := by
  obtain ⟨e, he, t, ht, hc⟩ := h
  have hP : ∀ c, Plain c → Plain c ∨ ∃ s, FileObj.text s ∈ fs ∧ c ∈ s := fun c h => Or.inl h
  exact over_shown (P := fun c => Plain c ∨ ∃ s, .text s ∈ fs ∧ c ∈ s) hP
    (folderDoes_over hP ((C86_read_folder fs hl _ _).1 ⟨rfl, rfl⟩) (fun s hs c hc => Or.inr ⟨s, hs, hc⟩) e he) ht c hc

/-- C88: every character that `search` prints is a printable character of ASCII, a line end, or occurs in the file or in the filter. -/
theorem C88_search {s : Str} {ls : List Str} (hs : Lines s ls) (filters : Filters) {c : ℕ}
    (h : Seen (search (.text s) filters).2 c) : Plain c ∨ c ∈ s ∨ InFilter c filters := by
  obtain ⟨e, he, t, ht, hc⟩ := h
  have hP : ∀ c, Plain c → Plain c ∨ c ∈ s := fun c h => Or.inl h
  have hr := (C80_search hs filters (search (.text s) filters).1 (search (.text s) filters).2).1 rfl
  rcases searchRun_over (P := fun c => Plain c ∨ c ∈ s) hP hr (fun l hl c hc => Or.inr (lines_sub hs l hl c hc)) e he with
    h | ⟨n, g, rfl⟩
  · rcases over_shown hP h ht c hc with h | h
    · exact Or.inl h
    · exact Or.inr (Or.inl h)
  · refine Or.inr (Or.inr ?_)
    cases ht with
    | filter => exact hc
    | filters h => exact ⟨_, h, hc⟩

/-- C88: so of an ASCII file only ASCII is printed. -/
theorem C88_ascii {s : Str} {ls : List Str} (hs : Lines s ls) (ha : Ascii s) (output : Bool) {legs : Legs}
    (hl : Grown legs) {c : ℕ} (h : Seen (readFile (.text s) output legs).out c) : c < 128 := by
  rcases C88_read_file hs output hl h with h | h
  · unfold Plain at h; omega
  · exact ha c h

end

/-! ## Examples -/

section
attribute [local instance] Py.Tables.cpython311

/-- an airport whose name begins with É -/
example : (match (parse (Sample.airport.set 93 201) true legTypeDesc).out with
    | [.table rows] => rows.any fun r => r.field = py!"Airport Name" && r.value.contains 201
    | _ => false) = true := by decide +kernel

/-- a bad frequency with a Greek letter is reported with it -/
example : (match (runDec .f034 [937] ⟨py!"D ", py!"S"⟩ legTypeDesc).out with
    | [.line s, .line _] => s.contains 937
    | _ => false) = true := by decide +kernel

end

end Arinc
