import Verif.Lemmas.Parse
import Verif.Props.Decode
import Verif.Props.Shape
import Verif.Props.Continuation
/-!
# C25 - C28: `parse`

All theorems hold in a process with any history: `legs` is any leg table such a process can have
(`C21_grown`).
-/
namespace Arinc
open Py Spec

section
variable [PyUnicode]

/-! ## C25 outcome -/

/-- C25: `parse` returns `True` iff a fresh `Record` accepts the line and all its fields decode. -/
theorem C25_true (line : Str) (output : Bool) (legs : Legs) (hl : Grown legs) :
    (parse line output legs).res = .ok true ↔
      (Record.new.read line).res = .ok true ∧
      ∀ f ∈ (Record.new.read line).obj.fields,
        ∃ v, (runDec f.dec f.value (Record.new.read line).obj.info legTypeDesc).res = .ok v := by
  rw [← C19_returns_iff _ output legs hl]
  rcases parse_cases line output legs with ⟨e, h1, h2, _⟩ | ⟨h1, h2⟩ | ⟨h1, _, h2, _⟩
  · rw [h1, h2]; simp
  · rw [h1, h2]; simp
  · rw [h1, ← h2]; simp

/-- C25: `parse` returns `False` iff `read` of a fresh `Record` does. -/
theorem C25_false (line : Str) (output : Bool) (legs : Legs) :
    (parse line output legs).res = .ok false ↔ (Record.new.read line).res = .ok false := by
  rcases parse_cases line output legs with ⟨e, h1, h2, _⟩ | ⟨h1, h2⟩ | ⟨h1, _, _, h2, _⟩
  · rw [h1, h2]
  · rw [h1, h2]
  · rw [h1]; simp [h2]

/-- C25: a line that is not a record of a supported section is rejected without a print. -/
theorem C25_silent (line : Str) (output : Bool) (legs : Legs)
    (h : ¬ (WellShaped line ∧ ∃ k, Resolves line k)) :
    parse line output legs = ⟨.ok false, [], legs⟩ := by
  have hr : ∃ o, Record.new.read line = ⟨.ok false, o, []⟩ := by
    rcases read_cases Record.new line with ⟨_, h'⟩ | ⟨_, _, h'⟩ | ⟨hrec, k, d, hres, _⟩
    · exact ⟨_, h'⟩
    · exact ⟨_, h'⟩
    · exact absurd ⟨⟨_, padded_strip line, hrec⟩, k, resolve_iff.1 hres⟩ h
  obtain ⟨o, hr⟩ := hr
  unfold parse
  rw [hr]

/-- C25: on success everything printed is diagnostics followed by, if `output`, the table of all
    fields; without `output` no table is printed. -/
theorem C25_prints (line : Str) (output : Bool) (legs : Legs) (hl : Grown legs)
    (h : (parse line output legs).res = .ok true) :
    ∃ rows diag, NoTable diag ∧
      (parse line output legs).out = diag ++ (if output then [.table rows] else []) ∧
      rows.length = (Record.new.read line).obj.fields.length ∧
      ∀ (i : Nat) (f : Field), (Record.new.read line).obj.fields[i]? = some f →
        ∃ v, (runDec f.dec f.value (Record.new.read line).obj.info legTypeDesc).res = .ok v ∧
          rows[i]? = some ⟨f.name, py!"'" ++ f.value ++ py!"'", v⟩ := by
  rcases parse_cases line output legs with ⟨e, h1, h2, _⟩ | ⟨h1, h2⟩ | ⟨h1, _, h2, _, h3⟩
  · rw [h2] at h; cases h
  · rw [h2] at h; cases h
  · obtain ⟨rows, hr⟩ := h2.2 h
    obtain ⟨a, b, diag, c1, c2⟩ := C19_table _ output legs hl rows hr
    obtain ⟨k, d, l, ha⟩ := accepted h1
    have ho : (Record.new.read line).out = [] := by rw [ha.read]
    refine ⟨rows, diag, c1, ?_, a, b⟩
    rw [h3, ho, c2]
    rfl

/-! ## C26 exceptions -/

/-- C26: `parse` raises iff reading raises (one of the two kinds of unsupported record of `C09`)
    or the line is accepted and some field is outside its domain; the first such field determines
    the exception: exit for a frequency that is neither blank nor numeric, else `ValueError`. -/
theorem C26_raises_iff (line : Str) (output : Bool) (legs : Legs) (hl : Grown legs) (e : Exc) :
    (parse line output legs).res = .error e ↔
      (e = .valueError ∧
        (UnsupportedContinuation line ∨ UnsupportedRestriction Record.new line)) ∨
      ((Record.new.read line).res = .ok true ∧
       ∃ pre f post, (Record.new.read line).obj.fields = pre ++ f :: post ∧
        (∀ g ∈ pre, InDomain g.dec g.value) ∧ ¬ InDomain f.dec f.value ∧
        ((e = .systemExit ∧ BadFrequency f.dec f.value) ∨
         (e = .valueError ∧ ¬ BadFrequency f.dec f.value))) := by
  rw [← C09_read_raises_iff]
  rcases parse_cases line output legs with ⟨e', h1, h2, _⟩ | ⟨h1, h2⟩ | ⟨h1, h2, _⟩
  · rw [h1, h2]; simp
  · rw [h1, h2]; simp
  · rw [← h2, h1, (C23_first_error _ output legs hl e).1]
    have hok := readNew_fieldsOK line
    have hexc : ∀ f : Field, ¬ InDomain f.dec f.value → (e = excOf f.dec f.value ↔
        ((e = .systemExit ∧ BadFrequency f.dec f.value) ∨
         (e = .valueError ∧ ¬ BadFrequency f.dec f.value))) := by
      intro f hf
      obtain ⟨a, b⟩ := excOf_exit hf
      constructor
      · rintro rfl
        by_cases hb : BadFrequency f.dec f.value
        · exact .inl ⟨a.2 hb, hb⟩
        · exact .inr ⟨b.2 hb, hb⟩
      · rintro (⟨rfl, hb⟩ | ⟨rfl, hb⟩)
        · exact (a.2 hb).symm
        · exact (b.2 hb).symm
    constructor
    · rintro ⟨pre, f, post, g1, g2, g3⟩
      right
      refine ⟨rfl, pre, f, post, g1, ?_, ?_⟩
      · intro g hg
        exact (decoded_ok_iff (hok g (by rw [g1]; simp [hg]))).1 (g2 g hg)
      · obtain ⟨g4, g5⟩ := (decoded_error_iff (hok f (by rw [g1]; simp))).1 g3
        exact ⟨g4, (hexc f g4).1 g5⟩
    · rintro (h | ⟨_, pre, f, post, g1, g2, g3, g4⟩)
      · cases h
      · refine ⟨pre, f, post, g1, ?_, ?_⟩
        · intro g hg
          exact (decoded_ok_iff (hok g (by rw [g1]; simp [hg]))).2 (g2 g hg)
        · exact (decoded_error_iff (hok f (by rw [g1]; simp))).2 ⟨g3, (hexc f g3).2 g4⟩

/-- C26, C25: `parse` returns `True` iff the line is accepted and every field is in its domain. -/
theorem C26_true_iff (line : Str) (output : Bool) (legs : Legs) (hl : Grown legs) :
    (parse line output legs).res = .ok true ↔
      (Record.new.read line).res = .ok true ∧
      ∀ f ∈ (Record.new.read line).obj.fields, InDomain f.dec f.value := by
  rw [C25_true line output legs hl]
  have hok := readNew_fieldsOK line
  constructor
  · rintro ⟨h1, h2⟩
    exact ⟨h1, fun f hf => (decoded_ok_iff (hok f hf)).1 (h2 f hf)⟩
  · rintro ⟨h1, h2⟩
    exact ⟨h1, fun f hf => (decoded_ok_iff (hok f hf)).2 (h2 f hf)⟩

/-! ## C27 sections that can always be displayed -/

/-- C27: every ASCII line without leading whitespace that is accepted as one of these 14 sections
    is parsed to `True`, whatever its columns contain. -/
theorem C27_always_displayed (line : Str) (output : Bool) (legs : Legs) (hl : Grown legs)
    (ha : Ascii line) (hn : NoLeadingSpace line)
    (h : (Record.new.read line).res = .ok true)
    (hk : (Record.new.read line).obj.ident ∈ displayable) :
    (parse line output legs).res = .ok true := by
  rw [C26_true_iff line output legs hl]
  refine ⟨h, ?_⟩
  obtain ⟨k, d, l, hacc⟩ := accepted h
  rw [accepted_fields hacc]
  rw [accepted_ident hacc] at hk
  intro f hf
  obtain ⟨s, hs, rfl⟩ := List.mem_map.1 hf
  have h1 := List.all_eq_true.1 displayable_safe _ (lookup_mem hacc.lookup)
  simp only [Bool.or_eq_true, Bool.not_eq_true', List.contains_eq_mem, decide_eq_false_iff_not] at h1
  have h2 := List.all_eq_true.1 (List.all_eq_true.1 (h1.resolve_left (fun h => h hk)) l hacc.mem) s hs
  exact safe_inDomain hacc.isRec hn ha h2

/-- C27, in terms of the line: an ASCII line of such a section is displayed or
    rejected (by `C01`, `C10`, `C12`: if it is not a record, or has an unsupported continuation
    number or application type). It never raises. -/
theorem C27_never_raises (line : Str) (output : Bool) (legs : Legs) (hl : Grown legs) (k : Str)
    (ha : Ascii line) (hn : NoLeadingSpace line) (hk : Resolves line k)
    (hd : k ∈ displayable) :
    (parse line output legs).res = .ok true ∨ (parse line output legs).res = .ok false := by
  cases hr : (Record.new.read line).res with
  | error e =>
    exfalso
    obtain ⟨_, ⟨t, k', i, hp, ht, hk', hx, _⟩ | ⟨t, hp, ht, hk', _⟩⟩ :=
      (C09_read_raises_iff _ line e).1 hr
    · have e1 := resolves_functional hk hk'
      subst e1
      revert hd; revert hx
      simp only [List.mem_cons, List.not_mem_nil, or_false]
      rintro (rfl | rfl | rfl | rfl) <;> decide
    · have e1 := resolves_functional hk hk'
      subst e1
      exact absurd hd (by decide)
  | ok b =>
    cases b with
    | false => exact .inr ((C25_false line output legs).2 hr)
    | true =>
      left
      refine C27_always_displayed line output legs hl ha hn hr ?_
      obtain ⟨k', d, l, hacc⟩ := accepted hr
      rw [accepted_ident hacc]
      rw [resolves_functional (resolve_iff.1 hacc.res) hk]
      exact hd

/-! ## C28 exit -/

/-- C28 (partial): `parse` ends the interpreter only on D, DB, PM and PN records whose columns
    23-27 are neither blank nor numeric. Missing: that it never does (`C28_refuted`). -/
theorem C28_exit_only_on_bad_frequency_partial (line : Str) (output : Bool) (legs : Legs)
    (hl : Grown legs) (h : (parse line output legs).res = .error .systemExit) :
    ∃ k, Resolves line k ∧ k ∈ [py!"D ", py!"DB", py!"PM", py!"PN"] ∧
      ¬ AllSpace (cols line 22 27) ∧ isNumeric (strip (cols line 22 27)) = false := by
  rcases (C26_raises_iff line output legs hl _).1 h with ⟨h, _⟩ | ⟨hr, pre, f, post, h1, _, _, h4⟩
  · cases h
  · rcases h4 with ⟨_, hb⟩ | ⟨h, _⟩
    · obtain ⟨k, d, l, hacc⟩ := accepted hr
      rw [accepted_fields hacc] at h1
      have hf : f ∈ l.map (FieldSpec.field line) := by rw [h1]; simp
      obtain ⟨s, hs, rfl⟩ := List.mem_map.1 hf
      have g := List.all_eq_true.1 (List.all_eq_true.1
        (List.all_eq_true.1 freq_specs _ (lookup_mem hacc.lookup)) l hacc.mem) s hs
      have hdec : s.dec = .f034 := hb.1
      simp only [hdec, decide_true, Bool.or_eq_true, Bool.and_eq_true, beq_iff_eq,
        List.contains_eq_mem, decide_eq_true_eq, Bool.true_eq_false, false_or] at g
      obtain ⟨_, hb1, hb2⟩ := hb
      simp only [FieldSpec.field, g.1, Slice.columns] at hb1 hb2
      have hlen := length_line hacc.isRec
      rw [pick_range' (by omega)] at hb1 hb2
      exact ⟨k, resolve_iff.1 hacc.res, g.2, hb1, hb2⟩
    · cases h

end

/-! ## Refutations and examples -/

section
attribute [local instance] Py.Tables.cpython311

/-- C28 is false as stated: there is a line whose display ends the interpreter. -/
theorem C28_refuted : ∃ line, (parse line true legTypeDesc).res = .error .systemExit :=
  ⟨Sample.vhfBadFreq, by decide +kernel⟩

/-- A primary record of section `k` with an undocumented character in every other column. -/
def junk (k : Str) : Str :=
  let t := (List.replicate 123 33 ++ List.replicate 9 48).set 0 83
  let t := (t.set 4 (k.headD 0)).set 5 ((k.drop 1).headD 0)
  if k = py!"EU" then (t.set 15 84).set 16 67
  else if k = py!"PP" then (t.set 26 50).set 27 69
  else match contColumn k with
    | some i => t.set i 48
    | none => t

/-- C27: the list of 14 sections is exact. For every other section there is an ASCII line
    without leading whitespace that is accepted, and `parse` raises. -/
theorem C27_list_exact : ∀ k ∈ supported, k ∉ displayable →
    Ascii (junk k) ∧ NoLeadingSpace (junk k) ∧ (Record.new.read (junk k)).res = .ok true ∧
    (Record.new.read (junk k)).obj.ident = k ∧ ∃ e, (parse (junk k) true legTypeDesc).res = .error e := by
  have key : supported.all (fun k => displayable.contains k ||
      ((junk k).all (fun c => decide (c < 128)) && (junk k).head? == some 83 &&
       decide ((Record.new.read (junk k)).res = .ok true) &&
       (Record.new.read (junk k)).obj.ident == k &&
       (match (parse (junk k) true legTypeDesc).res with
        | .error _ => true
        | .ok _ => false))) = true := by decide +kernel
  intro k hk hd
  have h := List.all_eq_true.1 key k hk
  simp only [Bool.or_eq_true, Bool.and_eq_true, List.contains_eq_mem, decide_eq_true_eq,
    List.all_eq_true, beq_iff_eq] at h
  obtain ⟨⟨⟨⟨h1, h2⟩, h3⟩, h4⟩, h5⟩ := h.resolve_left hd
  refine ⟨h1, ?_, h3, h4, ?_⟩
  · intro c hc
    rw [h2] at hc
    cases hc; rfl
  · cases hp : (parse (junk k) true legTypeDesc).res with
    | error e => exact ⟨e, rfl⟩
    | ok b => rw [hp] at h5; cases h5

-- the hypotheses of C27 are met by a real record
example : Ascii Sample.fir ∧ (Record.new.read Sample.fir).res = .ok true ∧
    (Record.new.read Sample.fir).obj.ident ∈ displayable := by
  refine ⟨?_, by decide +kernel, by decide +kernel⟩
  have : Sample.fir.all (fun c => decide (c < 128)) = true := by decide +kernel
  intro c hc
  simpa using List.all_eq_true.1 this c hc
-- C25, C26: all three outcomes occur
example : (parse Sample.airport true legTypeDesc).res = .ok true := by decide +kernel
example : (parse Sample.noSection true legTypeDesc).res = .ok false := by decide +kernel
example : (parse (junk (py!"PA")) true legTypeDesc).res = .error .valueError := by decide +kernel
-- C28: lines of the four sections without a bad frequency are displayed
example : (parse Sample.vhf true legTypeDesc).res = .ok true := by decide +kernel
end
end Arinc
