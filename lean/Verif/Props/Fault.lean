import Verif.Lemmas.Fault
import Verif.Lemmas.Agree
import Verif.Lemmas.Summary
import Verif.Props.Columns
import Verif.Py.Printable
/-!
# C108: what exceptions tell
-/
namespace Arinc
open Py Spec
section
variable [PyUnicode]

/-- C108: The functions with the arguments of the exceptions do what the other functions do. -/
theorem C108_same (p : Nat → Bool) (legs : Legs) :
    (∀ r : Record, ∀ line, (r.readF line).mapError Fault.exc = (r.read line).res) ∧
    (∀ r : Record, ∀ output, (r.decodeF p legs).mapError Fault.exc = (r.decode output legs).res) ∧
    (∀ line output, (parseF p line legs).mapError Fault.exc = (parse line output legs).res) ∧
    (∀ f, (readFileF p f legs).mapError Fault.exc = (readFile f true legs).res) ∧
    (∀ entries, (readFolderF p entries legs).mapError Fault.exc = (readFolder entries legs).res) ∧
    ∀ f filters, (searchF f).mapError Fault.exc = (search f filters).1 :=
  ⟨plainly_read, fun r o => plainly_decode p r o legs, fun l o => plainly_parse p l o legs, fun f => plainly_file p f legs,
   fun es => plainly_folder p es legs, plainly_search⟩

/-- C108: The exceptions of `parse`, with their arguments: either the record has an unsupported application type, or there
    is a first field whose value is refused, and the exception is about this value. A bad frequency ends the program. -/
theorem C108_message (p : Nat → Bool) (line : Str) (legs : Legs) (x : Fault) :
    parseF p line legs = .error x ↔
      ((UnsupportedContinuation line ∨ UnsupportedRestriction Record.new line) ∧
        ∃ k, Resolves line k ∧ x = .value (appComplaint k line)) ∨
      ((Record.new.read line).res = .ok true ∧
       ∃ pre f post, (Record.new.read line).obj.fields = pre ++ f :: post ∧
        (∀ g ∈ pre, InDomain g.dec g.value) ∧ ¬ InDomain f.dec f.value ∧
        ((x = .exit ∧ BadFrequency f.dec f.value) ∨
         (x = .value (complaint p f.dec f.value) ∧ ¬ BadFrequency f.dec f.value))) := by
  rw [← readF_error]
  have hx : ∀ f : Field, ¬ InDomain f.dec f.value → (x = faultOf p f.dec f.value ↔
      ((x = .exit ∧ BadFrequency f.dec f.value) ∨
       (x = .value (complaint p f.dec f.value) ∧ ¬ BadFrequency f.dec f.value))) := by
    intro f hf
    obtain ⟨a, b⟩ := excOf_exit hf
    unfold faultOf
    by_cases hb : BadFrequency f.dec f.value
    · rw [a.2 hb]; simp [hb]
    · rw [b.2 hb]; simp [hb]
  have hp := plainly_read Record.new line
  unfold Plainly at hp
  unfold parseF
  cases hr : Record.new.readF line with
  | error e =>
    rw [hr] at hp
    rw [← hp]
    simp [Except.mapError]
  | ok b =>
    rw [hr] at hp
    rw [← hp]
    cases b with
    | false => simp [Except.mapError]
    | true =>
      have hd := @decodeRows_fault _ p (Record.new.read line).obj.info _ (readNew_fieldsOK line) legs x
      have e1 : (match (Record.new.read line).obj.decodeF p legs with
          | .error e => (.error e : Except Fault Bool)
          | .ok _ => .ok true) = .error x ↔ decodeRowsF p (Record.new.read line).obj.info (Record.new.read line).obj.fields legs
            = .error x := by
        unfold Record.decodeF
        cases decodeRowsF p (Record.new.read line).obj.info (Record.new.read line).obj.fields legs <;> simp
      refine e1.trans (hd.trans ?_)
      constructor
      · rintro ⟨pre, f, post, h1, h2, h3, h4⟩
        exact .inr ⟨rfl, pre, f, post, h1, h2, h3, (hx f h3).1 h4⟩
      · rintro (h | ⟨_, pre, f, post, h1, h2, h3, h4⟩)
        · cases h
        · exact ⟨pre, f, post, h1, h2, h3, (hx f h3).2 h4⟩

/-- C108: The exception of `read_file` is that of the first line that raises one. -/
theorem C108_read_file (p : Nat → Bool) (s : Str) {legs : Legs} (x : Fault) :
    readFileF p (.text s) legs = .error x ↔
      ∃ pre l post, readlines s = pre ++ l :: post ∧
        (∀ m ∈ pre, ∀ e, parseF p m legTypeDesc ≠ .error e) ∧ parseF p l legTypeDesc = .error x := by
  have hl : ∀ l (legs : Legs) y, parseF p l legs = .error y ↔ parseF p l legTypeDesc = .error y := fun l legs y => by
    rw [C108_message, C108_message]
  show parseLinesF p (readlines s) legs = .error x ↔ _
  generalize readlines s = ls
  induction ls generalizing legs with
  | nil => simp [parseLinesF]
  | cons l ls ih =>
    unfold parseLinesF
    cases h : parseF p l legs with
    | error e =>
      have h' := (hl l legs e).1 h
      constructor
      · intro g; cases g; exact ⟨[], l, ls, rfl, by simp, h'⟩
      · rintro ⟨pre, m, post, h1, h2, h3⟩
        cases pre with
        | nil =>
          simp only [List.nil_append, List.cons.injEq] at h1
          rw [← h1.1, h'] at h3; cases h3; rfl
        | cons a pre =>
          simp only [List.cons_append, List.cons.injEq] at h1
          exact absurd h' (h1.1 ▸ h2 a (by simp) e)
    | ok b =>
      have h' : ∀ e, parseF p l legTypeDesc ≠ .error e := by
        intro e he
        rw [(hl l legs e).2 he] at h; cases h
      simp only
      rw [ih]
      constructor
      · rintro ⟨pre, m, post, h1, h2, h3⟩
        refine ⟨l :: pre, m, post, by rw [h1]; rfl, ?_, h3⟩
        intro a ha
        rcases List.mem_cons.1 ha with rfl | ha
        · exact h'
        · exact h2 a ha
      · rintro ⟨pre, m, post, h1, h2, h3⟩
        cases pre with
        | nil =>
          simp only [List.nil_append, List.cons.injEq] at h1
          exact absurd h3 (h1.1 ▸ h' x)
        | cons a pre =>
          simp only [List.cons_append, List.cons.injEq] at h1
          exact ⟨pre, m, post, h1.2, fun b hb => h2 b (by simp [hb]), h3⟩

omit [PyUnicode] in
/-- printable ASCII without quotes and backslash -/
def Quotable (s : Str) : Prop := ∀ c ∈ s, 32 ≤ c ∧ c ≤ 126 ∧ c ≠ 39 ∧ c ≠ 92

omit [PyUnicode] in
theorem repr_quotable {p : Nat → Bool} {s : Str} (h : Quotable s) : reprStr p s = 39 :: (s ++ [39]) := by
  refine reprStr_plain p fun c hc => ?_
  obtain ⟨h1, h2, h3, h4⟩ := h c hc
  exact ⟨.inl (by omega), h3, h4⟩

omit [PyUnicode] in
theorem quotable_sub {s t : Str} (h : Quotable s) (ht : ∀ c ∈ t, c ∈ s) : Quotable t := fun c hc => h c (ht c hc)

omit [PyUnicode] in
theorem strip_chars {s : Str} : ∀ c ∈ strip s, c ∈ s := by
  intro c hc
  obtain ⟨pre, post, h, _⟩ := padded_strip s
  rw [h]; simp [hc]

omit [PyUnicode] in
theorem strip_inside (s : Str) : strip s <:+: s := by
  obtain ⟨pre, post, h, _⟩ := padded_strip s
  exact ⟨pre, post, h.symm⟩

/-- C108: The `ValueError` about a value of printable characters (without quotes and backslashes, at most 190 columns)
    contains what is wrong, word for word -- except for three fields. -/
theorem C108_names_value (p : Nat → Bool) {fn : DecFn} {v : Str} (hv : Quotable v) (hlen : v.length ≤ 190)
    (hd : ¬ InDomain fn v) (hfn : fn ∉ [.f108, .f178, .f182]) :
    ∃ a ∈ complaint p fn v, named fn v <:+: a := by
  have hs : Quotable (strip v) := quotable_sub hv strip_chars
  have float : ∀ {t : Str}, Quotable t → ∃ a ∈ notFloat p t, t <:+: a := by
    intro t ht
    refine ⟨_, List.mem_singleton_self _, ?_⟩
    rw [repr_quotable ht]
    exact ⟨py!"could not convert string to float: " ++ [39], [39], by simp⟩
  have int : ∀ {t : Str}, Quotable t → t.length ≤ 190 → ∃ a ∈ notInt p t, t <:+: a := by
    intro t ht hl
    refine ⟨_, List.mem_singleton_self _, ?_⟩
    rw [repr_quotable ht, List.take_of_length_le (by simp; omega)]
    exact ⟨py!"invalid literal for int() with base 10: " ++ [39], [39], by simp⟩
  have second : ∀ {a t : Str}, ∃ b ∈ [a, t], t <:+: b := fun {a t} => ⟨t, by simp, List.infix_rfl⟩
  have secondV : ∀ {a : Str}, ∃ b ∈ [a, v], strip v <:+: b := fun {a} => ⟨v, by simp, strip_inside v⟩
  have drop : ∀ {t : Str}, Quotable t → Quotable (t.drop 1) := fun h => quotable_sub h fun c hc => List.mem_of_mem_drop hc
  have hlt : (v.take 2).length ≤ 190 := by simp; omega
  have hld : (v.drop 1).length ≤ 190 := by simp; omega
  cases fn
  case f002 => exact secondV
  case f008 => exact secondV
  case f020 => exact secondV
  case f021 => exact second
  case f022 => exact second
  case f023 => exact second
  case f024 => exact second
  case f025 => exact second
  case f026 =>
    simp only [complaint, named]
    split
    · exact float hs
    · exact second
  case f027 =>
    simp only [complaint, named]
    split
    · exact float (drop hs)
    · exact float hs
  case f032 => exact int (quotable_sub hv fun c hc => List.mem_of_mem_take hc) hlt
  case f034 => exact float hs
  case f039 => exact int (drop hv) hld
  case f045 =>
    obtain ⟨a, ha, h⟩ := float hv
    exact ⟨a, ha, (strip_inside v).trans h⟩
  case f062 =>
    obtain ⟨a, ha, h⟩ := float hv
    exact ⟨a, ha, (strip_inside v).trans h⟩
  case f103 =>
    obtain ⟨a, ha, h⟩ := float hv
    exact ⟨a, ha, (strip_inside v).trans h⟩
  case f135 =>
    obtain ⟨a, ha, h⟩ := float hv
    exact ⟨a, ha, (strip_inside v).trans h⟩
  case f269 =>
    obtain ⟨a, ha, h⟩ := float hv
    exact ⟨a, ha, (strip_inside v).trans h⟩
  case f072 => exact ⟨_, List.mem_singleton_self _, (strip_inside v).trans ⟨py!"Invalid speed", [], by simp⟩⟩
  case f082 =>
    exact ⟨_, List.mem_singleton_self _, (strip_inside v).trans ⟨py!"Invalid Waypoint Usage: '", py!"'", rfl⟩⟩
  case f270 => exact ⟨_, List.mem_singleton_self _, (strip_inside v).trans ⟨py!"Bad TCH Value Indicator: ", [], by simp⟩⟩
  case f108 => exact absurd (by simp) hfn
  case f178 => exact absurd (by simp) hfn
  case f182 => exact absurd (by simp) hfn
  all_goals exact absurd trivial hd

theorem complaint_shape (p : Nat → Bool) {fn : DecFn} {v : Str} (hv : Quotable v) (hd : ¬ InDomain fn v) :
    (∃ a, complaint p fn v = [a]) ∨ ∃ l b, complaint p fn v = [l, b] ∧ Quotable l ∧ Quotable b := by
  have hs : Quotable (strip v) := quotable_sub hv strip_chars
  cases fn
  case f002 => exact .inr ⟨_, _, rfl, by unfold Quotable; decide, hv⟩
  case f008 => exact .inr ⟨_, _, rfl, by unfold Quotable; decide, hv⟩
  case f020 => exact .inr ⟨_, _, rfl, by unfold Quotable; decide, hv⟩
  case f021 => exact .inr ⟨_, _, rfl, by unfold Quotable; decide, hs⟩
  case f022 => exact .inr ⟨_, _, rfl, by unfold Quotable; decide, hs⟩
  case f023 => exact .inr ⟨_, _, rfl, by unfold Quotable; decide, hs⟩
  case f024 => exact .inr ⟨_, _, rfl, by unfold Quotable; decide, hs⟩
  case f025 => exact .inr ⟨_, _, rfl, by unfold Quotable; decide, hs⟩
  case f026 =>
    simp only [complaint]
    split
    · exact .inl ⟨_, rfl⟩
    · exact .inr ⟨_, _, rfl, by unfold Quotable; decide, hs⟩
  case f027 => exact .inl ⟨_, rfl⟩
  case f032 => exact .inl ⟨_, rfl⟩
  case f034 => exact .inl ⟨_, rfl⟩
  case f039 => exact .inl ⟨_, rfl⟩
  case f045 => exact .inl ⟨_, rfl⟩
  case f062 => exact .inl ⟨_, rfl⟩
  case f103 => exact .inl ⟨_, rfl⟩
  case f135 => exact .inl ⟨_, rfl⟩
  case f269 => exact .inl ⟨_, rfl⟩
  case f072 => exact .inl ⟨_, rfl⟩
  case f082 => exact .inl ⟨_, rfl⟩
  case f270 => exact .inl ⟨_, rfl⟩
  case f108 => exact .inl ⟨_, rfl⟩
  case f178 => exact .inl ⟨_, rfl⟩
  case f182 => exact .inl ⟨_, rfl⟩
  all_goals exact absurd trivial hd

/-- C108: The same of the text of the exception, `str(e)`, which Python prints last. -/
theorem C108_text (p : Nat → Bool) {fn : DecFn} {v : Str} (hv : Quotable v) (hlen : v.length ≤ 190)
    (hd : ¬ InDomain fn v) (hfn : fn ∉ [.f108, .f178, .f182]) :
    ∃ t, (Fault.value (complaint p fn v)).text p = some t ∧ named fn v <:+: t := by
  obtain ⟨a, ha, h⟩ := C108_names_value p hv hlen hd hfn
  rcases complaint_shape p hv hd with ⟨b, hb⟩ | ⟨l, b, hb, hl, hq⟩
  · rw [hb] at ha ⊢
    exact ⟨b, rfl, List.mem_singleton.1 ha ▸ h⟩
  · rw [hb] at ha ⊢
    refine ⟨_, rfl, h.trans ?_⟩
    simp only [reprElems]
    rw [repr_quotable hl, repr_quotable hq]
    rcases List.mem_cons.1 ha with rfl | ha
    · exact ⟨[40, 39], [39, 44, 32] ++ (39 :: (b ++ [39])) ++ [41], by simp⟩
    · cases List.mem_singleton.1 ha
      exact ⟨[40, 39] ++ l ++ [39, 44, 32, 39], [39, 41], by simp⟩

omit [PyUnicode] in
theorem fields_short : registry.all (fun e => e.2.layouts.all fun l => l.all fun s =>
    decide (s.slice.columns.length ≤ 190)) = true := by decide +kernel

/-- C108: If `parse` raises a `ValueError` for a record of printable characters (without quotes and backslashes) that is
    accepted, the text of the exception contains what is wrong with the first value that is refused, unless this is an IFR capability, a
    time zone or a guard/transmit indicator. -/
theorem C108_names_partial {p : Nat → Bool} {line : Str} (hq : Quotable line) {legs : Legs} {args : List Str}
    (h : parseF p line legs = .error (.value args)) (ha : (Record.new.read line).res = .ok true) :
    ∃ pre f post, (Record.new.read line).obj.fields = pre ++ f :: post ∧ (∀ g ∈ pre, InDomain g.dec g.value) ∧
      ¬ InDomain f.dec f.value ∧
      (f.dec ∉ [.f108, .f178, .f182] → ∃ t, (Fault.value args).text p = some t ∧ named f.dec f.value <:+: t) := by
  rcases (C108_message p line legs _).1 h with ⟨hu, _⟩ | ⟨_, pre, f, post, h1, h2, h3, h4⟩
  · have := (C09_read_raises_iff Record.new line .valueError).2 ⟨rfl, hu⟩
    rw [ha] at this; cases this
  · refine ⟨pre, f, post, h1, h2, h3, fun hfn => ?_⟩
    have hf : f ∈ (Record.new.read line).obj.fields := by rw [h1]; simp
    have hx : args = complaint p f.dec f.value := by
      rcases h4 with ⟨h4, _⟩ | ⟨h4, _⟩
      · cases h4
      · cases h4; rfl
    rw [hx]
    obtain ⟨k, d, l, hacc⟩ := accepted ha
    obtain ⟨s, hs, rfl, _, hw⟩ := accepted_width hacc hf
    have := List.all_eq_true.1 fields_short _ (lookup_mem hacc.lookup)
    have := List.all_eq_true.1 (List.all_eq_true.1 this l hacc.mem) s hs
    have hov : FieldsOver (fun c => 32 ≤ c ∧ c ≤ 126 ∧ c ≠ 39 ∧ c ≠ 92) (Record.new.read line).obj :=
      read_over hq (fun g hg => (by cases hg))
    exact C108_text p (hov _ hf) (by rw [hw]; exact of_decide_eq_true this) h3 hfn

/-- C108: When a program that calls `read_file` ends with exit status 0: all lines were read, or the first line that could
    not be read has a bad frequency. -/
theorem C108_status (p : Nat → Bool) (s : Str) :
    readFileStatus p (.text s) = 0 ↔
      (∀ l ∈ readlines s, ∀ e, parseF p l legTypeDesc ≠ .error e) ∨
      ∃ pre l post, readlines s = pre ++ l :: post ∧ (∀ m ∈ pre, ∀ e, parseF p m legTypeDesc ≠ .error e) ∧
        (parse l true legTypeDesc).res = .error .systemExit := by
  have hx : ∀ l, parseF p l legTypeDesc = .error .exit ↔ (parse l true legTypeDesc).res = .error .systemExit := by
    intro l
    have hp := plainly_parse p l true legTypeDesc
    unfold Plainly at hp
    rw [← hp]
    constructor
    · intro h; rw [h]; rfl
    · intro h
      cases hf : parseF p l legTypeDesc with
      | ok b => rw [hf] at h; cases h
      | error x =>
        rcases (C108_message p l legTypeDesc x).1 hf with ⟨_, _, _, rfl⟩ | ⟨_, _, _, _, _, _, _, ⟨rfl, _⟩ | ⟨rfl, _⟩⟩
        · rw [hf] at h; cases h
        · rfl
        · rw [hf] at h; cases h
  unfold readFileStatus
  have hr := C108_read_file p s (legs := legTypeDesc)
  cases h : readFileF p (.text s) legTypeDesc with
  | ok u =>
    refine ⟨fun _ => .inl fun l hl e he => ?_, fun _ => rfl⟩
    have key : ∀ ls : List Str, l ∈ ls → ∃ x, ∃ pre m post, ls = pre ++ m :: post ∧
        (∀ m ∈ pre, ∀ e, parseF p m legTypeDesc ≠ .error e) ∧ parseF p m legTypeDesc = .error x := by
      intro ls hls
      induction ls with
      | nil => cases hls
      | cons m ls ih =>
        cases hm : parseF p m legTypeDesc with
        | error x => exact ⟨x, [], m, ls, rfl, by simp, hm⟩
        | ok b =>
          rcases List.mem_cons.1 hls with rfl | hls
          · rw [he] at hm; cases hm
          · obtain ⟨x, pre, m', post, rfl, h2, h3⟩ := ih hls
            refine ⟨x, m :: pre, m', post, rfl, ?_, h3⟩
            intro a ha e'
            rcases List.mem_cons.1 ha with rfl | ha
            · rw [hm]; simp
            · exact h2 a ha e'
    obtain ⟨x, hx⟩ := key _ hl
    rw [(hr x).2 hx] at h; cases h
  | error x =>
    obtain ⟨pre, l, post, h1, h2, h3⟩ := (hr x).1 h
    constructor
    · intro hs
      right
      refine ⟨pre, l, post, h1, h2, (hx l).1 ?_⟩
      rw [h3]
      cases x with
      | exit => rfl
      | value a => cases hs
      | other e => cases hs
    · rintro (ha | ⟨pre', l', post', g1, g2, g3⟩)
      · exact absurd h3 (ha l (by rw [h1]; simp) x)
      · have := (hr .exit).2 ⟨pre', l', post', g1, g2, (hx l').2 g3⟩
        rw [h] at this
        cases this; rfl

/-- the exceptions of `read_file` do not depend on what was decoded before -/
theorem readFileF_legs (p : Nat → Bool) (f : FileObj) (legs : Legs) (x : Fault) :
    readFileF p f legs = .error x ↔ readFileF p f legTypeDesc = .error x := by
  cases f with
  | text s => rw [C108_read_file, C108_read_file]
  | unopenable => rfl
  | undecodable => rfl

/-- C108: What `read_folder` raises is what the first file raises that raises anything when it is read alone. -/
theorem C108_folder (p : Nat → Bool) (fs : List FileObj) {legs : Legs} (x : Fault) :
    readFolderF p (some fs) legs = .error x ↔
      ∃ pre f post, fs = pre ++ f :: post ∧
        (∀ g ∈ pre, ∀ e, readFileF p g legTypeDesc ≠ .error e) ∧ readFileF p f legTypeDesc = .error x := by
  show readFilesF p fs legs = .error x ↔ _
  induction fs generalizing legs with
  | nil => simp [readFilesF]
  | cons f fs ih =>
    unfold readFilesF
    cases h : readFileF p f legs with
    | error e =>
      have h' := (readFileF_legs p f legs e).1 h
      constructor
      · intro g; cases g; exact ⟨[], f, fs, rfl, by simp, h'⟩
      · rintro ⟨pre, m, post, h1, h2, h3⟩
        cases pre with
        | nil =>
          simp only [List.nil_append, List.cons.injEq] at h1
          rw [← h1.1, h'] at h3; cases h3; rfl
        | cons a pre =>
          simp only [List.cons_append, List.cons.injEq] at h1
          exact absurd h' (h1.1 ▸ h2 a (by simp) e)
    | ok b =>
      have h' : ∀ e, readFileF p f legTypeDesc ≠ .error e := by
        intro e he
        rw [← readFileF_legs p f legs e, h] at he; cases he
      simp only
      rw [ih]
      constructor
      · rintro ⟨pre, m, post, rfl, h2, h3⟩
        refine ⟨f :: pre, m, post, rfl, ?_, h3⟩
        intro g hg
        rcases List.mem_cons.1 hg with rfl | hg
        · exact h'
        · exact h2 g hg
      · rintro ⟨pre, m, post, h1, h2, h3⟩
        cases pre with
        | nil =>
          simp only [List.nil_append, List.cons.injEq] at h1
          rw [← h1.1] at h3; exact absurd h3 (h' x)
        | cons a pre =>
          simp only [List.cons_append, List.cons.injEq] at h1
          exact ⟨pre, m, post, h1.2, fun g hg => h2 g (by simp [hg]), h3⟩

/-- C108: What `search` raises is about the application type of the first line where it is not supported, whatever the
    filters: values of other fields do not matter to it. -/
theorem C108_search (s : Str) (x : Fault) :
    searchF (.text s) = .error x ↔
      ∃ pre l post, readlines s = pre ++ l :: post ∧
        (∀ m ∈ pre, ¬ (UnsupportedContinuation m ∨ UnsupportedRestriction Record.new m)) ∧
        (UnsupportedContinuation l ∨ UnsupportedRestriction Record.new l) ∧
        ∃ k, Resolves l k ∧ x = .value (appComplaint k l) := by
  show searchLinesF (readlines s) = .error x ↔ _
  generalize readlines s = ls
  induction ls with
  | nil => simp [searchLinesF]
  | cons l ls ih =>
    unfold searchLinesF
    cases h : Record.new.readF l with
    | error e =>
      have h' := readF_error.1 h
      constructor
      · intro g; cases g; exact ⟨[], l, ls, rfl, by simp, h'⟩
      · rintro ⟨pre, m, post, h1, h2, h3⟩
        cases pre with
        | nil =>
          simp only [List.nil_append, List.cons.injEq] at h1
          rw [← h1.1] at h3
          have := readF_error.2 h3
          rw [h] at this; cases this; rfl
        | cons a pre =>
          simp only [List.cons_append, List.cons.injEq] at h1
          exact absurd h'.1 (h1.1 ▸ h2 a (by simp))
    | ok b =>
      have h' : ¬ (UnsupportedContinuation l ∨ UnsupportedRestriction Record.new l) := by
        intro hu
        have hp := plainly_read Record.new l
        unfold Plainly at hp
        rw [h, (C09_read_raises_iff Record.new l .valueError).2 ⟨rfl, hu⟩] at hp
        cases hp
      simp only
      rw [ih]
      constructor
      · rintro ⟨pre, m, post, rfl, h2, h3⟩
        refine ⟨l :: pre, m, post, rfl, ?_, h3⟩
        intro g hg
        rcases List.mem_cons.1 hg with rfl | hg
        · exact h'
        · exact h2 g hg
      · rintro ⟨pre, m, post, h1, h2, h3⟩
        cases pre with
        | nil =>
          simp only [List.nil_append, List.cons.injEq] at h1
          rw [← h1.1] at h3; exact absurd h3.1 h'
        | cons a pre =>
          simp only [List.cons_append, List.cons.injEq] at h1
          exact ⟨pre, m, post, h1.2, fun g hg => h2 g (by simp [hg]), h3⟩

/-- C108: The exit status of a program that searches a file tells whether the whole file was searched: it is 0 iff there was a
    file to read and no line of it has an unsupported application type. -/
theorem C108_search_status (f : FileObj) :
    searchStatus f = 0 ↔ ∃ s, f = .text s ∧
      ∀ l ∈ readlines s, ¬ (UnsupportedContinuation l ∨ UnsupportedRestriction Record.new l) := by
  cases f with
  | unopenable => constructor <;> intro h <;> first | cases h; done | (obtain ⟨_, h, _⟩ := h; cases h)
  | undecodable => constructor <;> intro h <;> first | cases h; done | (obtain ⟨_, h, _⟩ := h; cases h)
  | text s =>
    have hs := C108_search s
    unfold searchStatus
    cases h : searchF (.text s) with
    | error x =>
      obtain ⟨pre, l, post, h1, _, h3, k, _, rfl⟩ := (hs x).1 h
      constructor
      · intro h; cases h
      · rintro ⟨t, ht, ha⟩
        cases ht
        exact absurd h3 (ha l (by rw [h1]; simp))
    | ok u =>
      refine ⟨fun _ => ⟨s, rfl, fun l hl hu => ?_⟩, fun _ => rfl⟩
      have hp := plainly_search (.text s) .other
      unfold Plainly at hp
      rw [h] at hp
      have key : ∀ ls : List Str, l ∈ ls → searchLinesF ls ≠ .ok () := by
        intro ls hls
        induction ls with
        | nil => cases hls
        | cons m ls ih =>
          unfold searchLinesF
          cases hm : Record.new.readF m with
          | error x => simp
          | ok b =>
            rcases List.mem_cons.1 hls with rfl | hls
            · have hp := plainly_read Record.new l
              unfold Plainly at hp
              rw [hm, (C09_read_raises_iff Record.new l .valueError).2 ⟨rfl, hu⟩] at hp
              cases hp
            · exact ih hls
      exact key _ hl h

/-- C108: The exit status of a program that reads a folder is 0 iff the folder could be listed and either no file raises
    anything when it is read alone, or the first that does is one that ends the program for a bad frequency. -/
theorem C108_folder_status (p : Nat → Bool) (entries : Option (List FileObj)) :
    readFolderStatus p entries = 0 ↔ ∃ fs, entries = some fs ∧
      ((∀ f ∈ fs, ∀ e, readFileF p f legTypeDesc ≠ .error e) ∨
       ∃ pre f post, fs = pre ++ f :: post ∧ (∀ g ∈ pre, ∀ e, readFileF p g legTypeDesc ≠ .error e) ∧
        (readFile f true legTypeDesc).res = .error .systemExit) := by
  cases entries with
  | none => constructor <;> intro h <;> first | cases h; done | (obtain ⟨_, h, _⟩ := h; cases h)
  | some fs =>
    have hx : ∀ f, readFileF p f legTypeDesc = .error .exit ↔ (readFile f true legTypeDesc).res = .error .systemExit := by
      intro f
      have hp := plainly_file p f legTypeDesc
      unfold Plainly at hp
      rw [← hp]
      constructor
      · intro h; rw [h]; rfl
      · intro h
        cases hf : readFileF p f legTypeDesc with
        | ok b => rw [hf] at h; cases h
        | error x =>
          rw [hf] at h
          cases x with
          | exit => rfl
          | value a => cases h
          | other e =>
            exfalso
            cases f with
            | unopenable => cases hf; cases h
            | undecodable => cases hf; cases h
            | text s =>
              obtain ⟨_, l, _, _, _, h3⟩ := (C108_read_file p s _).1 hf
              rcases (C108_message p l legTypeDesc _).1 h3 with
                ⟨_, _, _, h4⟩ | ⟨_, _, _, _, _, _, _, ⟨h4, _⟩ | ⟨h4, _⟩⟩ <;> cases h4
    have hr := C108_folder p fs (legs := legTypeDesc)
    have key : ∀ fs : List FileObj, (∃ f ∈ fs, ∃ e, readFileF p f legTypeDesc = .error e) →
        ∃ x, ∃ pre f post, fs = pre ++ f :: post ∧
          (∀ g ∈ pre, ∀ e, readFileF p g legTypeDesc ≠ .error e) ∧ readFileF p f legTypeDesc = .error x := by
      rintro fs ⟨f, hf, e, he⟩
      induction fs with
      | nil => cases hf
      | cons g fs ih =>
        cases hg : readFileF p g legTypeDesc with
        | error x => exact ⟨x, [], g, fs, rfl, by simp, hg⟩
        | ok b =>
          rcases List.mem_cons.1 hf with rfl | hf
          · rw [he] at hg; cases hg
          · obtain ⟨x, pre, m, post, rfl, h2, h3⟩ := ih hf
            refine ⟨x, g :: pre, m, post, rfl, ?_, h3⟩
            intro a ha e'
            rcases List.mem_cons.1 ha with rfl | ha
            · rw [hg]; simp
            · exact h2 a ha e'
    unfold readFolderStatus
    cases h : readFolderF p (some fs) legTypeDesc with
    | ok u =>
      refine ⟨fun _ => ⟨fs, rfl, .inl fun f hf e he => ?_⟩, fun _ => rfl⟩
      obtain ⟨x, hx⟩ := key fs ⟨f, hf, e, he⟩
      rw [(hr x).2 hx] at h; cases h
    | error x =>
      obtain ⟨pre, f, post, h1, h2, h3⟩ := (hr x).1 h
      constructor
      · intro hs
        refine ⟨fs, rfl, .inr ⟨pre, f, post, h1, h2, (hx f).1 ?_⟩⟩
        rw [h3]
        cases x with
        | exit => rfl
        | value a => cases hs
        | other e => cases hs
      · rintro ⟨fs', hfs, ha⟩
        cases hfs
        rcases ha with ha | ⟨pre', f', post', g1, g2, g3⟩
        · exact absurd h3 (ha f (by rw [h1]; simp) x)
        · have := (hr .exit).2 ⟨pre', f', post', g1, g2, (hx f').2 g3⟩
          rw [h] at this
          cases this; rfl

end

/-! ## Refutations and examples -/

section
attribute [local instance] Py.Tables.cpython311

/-- an airport with another IFR capability -/
def Sample.airportIfr (c : Nat) : Str := Sample.airport.set 30 c

/-- C108: The exception about an IFR capability does not tell the value: `X` and `Q` are refused with the same words, in which
    they do not occur. Nor does the one about the application type of an airway. -/
theorem C108_names_refuted :
    (Record.new.read (Sample.airportIfr 88)).res = .ok true ∧
    parseF Py.Tables.printable311 (Sample.airportIfr 88) legTypeDesc = .error (.value [py!"Invalid IFR Capability"]) ∧
    parseF Py.Tables.printable311 (Sample.airportIfr 81) legTypeDesc = .error (.value [py!"Invalid IFR Capability"]) ∧
    ¬ [88] <:+: py!"Invalid IFR Capability" ∧
    parseF Py.Tables.printable311 Sample.airwayContZ legTypeDesc = .error (.value [py!"Unknown Application Type"]) := by
  decide +kernel

/-- C108: A file that is not read to its end because of a bad frequency, and exit status 0: the airport is not shown. -/
theorem C108_status_refuted :
    readFileStatus Py.Tables.printable311 (.text (Sample.vhfBadFreq ++ [10] ++ Sample.airport ++ [10])) = 0 ∧
    (readFile (.text (Sample.vhfBadFreq ++ [10] ++ Sample.airport ++ [10])) true legTypeDesc).res = .error .systemExit ∧
    NoTable (readFile (.text (Sample.vhfBadFreq ++ [10] ++ Sample.airport ++ [10])) true legTypeDesc).out := by
  refine ⟨by decide +kernel, by decide +kernel, ?_⟩
  intro rows h
  have : (readFile (.text (Sample.vhfBadFreq ++ [10] ++ Sample.airport ++ [10])) true legTypeDesc).out.all
    (fun e => match e with | .table _ => false | _ => true) = true := by decide +kernel
  exact absurd (List.all_eq_true.1 this _ h) (by simp)

/-- hypotheses of `C108_names_partial` are met: an airport with a bad magnetic variation -/
example : Quotable (Sample.airport.set 53 88) ∧ (Record.new.read (Sample.airport.set 53 88)).res = .ok true ∧
    parseF Py.Tables.printable311 (Sample.airport.set 53 88) legTypeDesc =
      .error (.value [py!"invalid literal for int() with base 10: '0X99'"]) := by
  refine ⟨?_, by decide +kernel, by decide +kernel⟩
  unfold Quotable; decide +kernel

/-- what the user sees -/
example : (Fault.value (complaint Py.Tables.printable311 .f024 (py!"12*4"))).text Py.Tables.printable311 =
    some (py!"('Invalid Theta:', '12*4')") := by decide +kernel

/-- a folder: the first file is fine, the second has an unsupported application type, the third is not opened -/
example : readFolderF Py.Tables.printable311 (some [.text Sample.airport, .text Sample.airwayContZ, .unopenable]) legTypeDesc =
      .error (.value [py!"Unknown Application Type"]) ∧
    readFolderStatus Py.Tables.printable311 (some [.text Sample.airport, .text Sample.vhfBadFreq, .unopenable]) = 0 ∧
    readFolderStatus Py.Tables.printable311 (some [.text Sample.airport, .unopenable]) = 1 := by decide +kernel

/-- a search gets past a bad frequency, but not past an unsupported application type -/
example : searchStatus (.text (Sample.vhfBadFreq ++ [10] ++ Sample.airport ++ [10])) = 0 ∧
    searchF (.text (Sample.airport ++ [10] ++ Sample.airwayContZ)) = .error (.value [py!"Unknown Application Type"]) ∧
    searchStatus (.text (Sample.airport ++ [10] ++ Sample.airwayContZ)) = 1 := by decide +kernel

end
end Arinc
