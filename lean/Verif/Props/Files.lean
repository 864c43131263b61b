import Verif.Lemmas.File
import Verif.Props.Parse
import Verif.Props.Samples
/-!
# C29 - C36: `read_file`, `read_folder`, `search`

All theorems hold in a process with any history: `legs` is any leg table such a process can have
(`C21_grown`). `Lines s ls` says that the text `s` consists of the lines `ls`.
-/
namespace Arinc
open Py Spec

section
variable [PyUnicode]

/-! ## C29 read_file -/

omit [PyUnicode] in
/-- Every text has exactly one decomposition into lines. -/
theorem C29_lines_of_text (s : Str) : ∃ ls, Lines s ls ∧ ∀ ls', Lines s ls' → ls' = ls := by
  obtain ⟨ls, h⟩ := lines_exist s
  exact ⟨ls, h, fun ls' h' => lines_unique h' h⟩

/-- C29: if `parse` raises on no line, `read_file` returns normally and prints what `parse` prints
    for each line, in order. -/
theorem C29_all_lines (s : Str) (ls : List Str) (h : Lines s ls) (output : Bool) (legs : Legs)
    (hl : Grown legs) (hok : ∀ l ∈ ls, ∀ e, (parse l output legTypeDesc).res ≠ .error e) :
    (readFile (.text s) output legs).res = .ok () ∧
    (readFile (.text s) output legs).out = ls.flatMap (fun l => (parse l output legTypeDesc).out) := by
  rw [readFile_lines h]
  exact parseLines_ok hok hl

/-- C29: otherwise it raises what `parse` raises on the first such line, having printed what `parse`
    prints up to there. -/
theorem C29_first_exception (s : Str) (pre post : List Str) (l : Str) (h : Lines s (pre ++ l :: post))
    (output : Bool) (legs : Legs) (hl : Grown legs)
    (hok : ∀ l ∈ pre, ∀ e, (parse l output legTypeDesc).res ≠ .error e)
    (e : Exc) (he : (parse l output legTypeDesc).res = .error e) :
    (readFile (.text s) output legs).res = .error e ∧
    (readFile (.text s) output legs).out =
      (pre ++ [l]).flatMap (fun l => (parse l output legTypeDesc).out) := by
  rw [readFile_lines h]
  exact parseLines_stop hok he hl

/-- C29: the effect of a text followed by another (at a line boundary) is the effect of the first,
    then, unless it raised, the effect of the second. -/
theorem C29_concatenation (a s : Str) (hc : Complete a s) (output : Bool) (legs : Legs) :
    readFile (.text (a ++ s)) output legs =
      match (readFile (.text a) output legs).res with
      | .error _ => readFile (.text a) output legs
      | .ok _ =>
        { res := (readFile (.text s) output (readFile (.text a) output legs).legs).res
          out := (readFile (.text a) output legs).out ++
            (readFile (.text s) output (readFile (.text a) output legs).legs).out
          legs := (readFile (.text s) output (readFile (.text a) output legs).legs).legs } := by
  obtain ⟨la, ha⟩ := lines_exist a
  obtain ⟨ls, hs⟩ := lines_exist s
  rw [readFile_lines (lines_append ha hs hc), readFile_lines ha, parseLines_append]
  simp only [readFile_lines hs]
  cases (parseLines output la legs).res <;> rfl

/-- C29: a file that cannot be opened or decoded raises and prints nothing. -/
theorem C29_unreadable (output : Bool) (legs : Legs) :
    readFile .unopenable output legs = ⟨.error .osError, [], legs⟩ ∧
    readFile .undecodable output legs = ⟨.error .valueError, [], legs⟩ := ⟨rfl, rfl⟩

/-! ## C30 line endings -/

/-- C30: LF, CR LF and CR give the same effects. `last` is the text after the last terminator. -/
theorem C30_line_endings (ls : List Str) (last : Str) (h : ∀ l ∈ ls, NoEOL l) (hlast : NoEOL last)
    (eol eol' : Str) (he : eol = [10] ∨ eol = [13, 10] ∨ eol = [13])
    (he' : eol' = [10] ∨ eol' = [13, 10] ∨ eol' = [13]) (output : Bool) (legs : Legs)
    (filters : Filters) :
    readFile (.text (terminated eol ls ++ last)) output legs =
      readFile (.text (terminated eol' ls ++ last)) output legs ∧
    search (.text (terminated eol ls ++ last)) filters =
      search (.text (terminated eol' ls ++ last)) filters := by
  constructor
  · rw [readFile_lines (lines_terminated he h hlast), readFile_lines (lines_terminated he' h hlast)]
  · rw [search_lines (lines_terminated he h hlast), search_lines (lines_terminated he' h hlast)]

/-- C30: more generally, only the lines matter, however they are terminated. -/
theorem C30_only_lines_matter (s s' : Str) (ls : List Str) (h : Lines s ls) (h' : Lines s' ls)
    (output : Bool) (legs : Legs) (filters : Filters) :
    readFile (.text s) output legs = readFile (.text s') output legs ∧
    search (.text s) filters = search (.text s') filters := by
  rw [readFile_lines h, readFile_lines h', search_lines h, search_lines h']
  exact ⟨rfl, rfl⟩

/-! ## C31 final newline, other lines -/

/-- C31: lines that are not well-shaped records of a supported section may be inserted anywhere. -/
theorem C31_other_lines (s s' : Str) (a b junk : List Str) (h : Lines s (a ++ b))
    (h' : Lines s' (a ++ junk ++ b)) (hj : ∀ l ∈ junk, ¬ (WellShaped l ∧ ∃ k, Resolves l k))
    (output : Bool) (legs : Legs) (filters : Filters) :
    readFile (.text s') output legs = readFile (.text s) output legs ∧
    search (.text s') filters = search (.text s) filters := by
  rw [readFile_lines h, readFile_lines h', search_lines h, search_lines h']
  exact ⟨parseLines_insert hj output a b legs, searchLines_insert hj filters a b 0⟩

/-- A blank line is such a line. -/
theorem C31_blank_line (l : Str) (h : AllSpace l) : ¬ (WellShaped l ∧ ∃ k, Resolves l k) := by
  rintro ⟨⟨t, hp, hrec⟩, _⟩
  have h0 : t.length = 132 := hrec.1
  rw [← isRecord_strip hp hrec, strip_nil_iff.2 h] at h0
  cases h0

/-- C31: a final newline (LF, CR LF or CR) makes no difference, whatever the text. -/
theorem C31_final_newline (s eol : Str) (he : eol = [10] ∨ eol = [13, 10] ∨ eol = [13]) (output : Bool)
    (legs : Legs) (filters : Filters) :
    readFile (.text (s ++ eol)) output legs = readFile (.text s) output legs ∧
    search (.text (s ++ eol)) filters = search (.text s) filters := by
  obtain ⟨ls, h⟩ := lines_exist s
  have key : ∀ ls', (ls' = ls ∨ ls' = ls ++ [[]]) → Lines (s ++ eol) ls' →
      readFile (.text (s ++ eol)) output legs = readFile (.text s) output legs ∧
      search (.text (s ++ eol)) filters = search (.text s) filters := by
    intro ls' hls h'
    rcases hls with rfl | rfl
    · exact C30_only_lines_matter _ _ _ h' h output legs filters
    · refine C31_other_lines s (s ++ eol) ls [] [[]] (by simpa using h) (by simpa using h') ?_ output
        legs filters
      intro l hl
      simp only [List.mem_singleton] at hl
      subst hl
      exact C31_blank_line [] (by intro c hc; cases hc)
  obtain ⟨ls', hor, h'⟩ := lines_snoc_eol h he
  exact key ls' hor h'

/-! ## C32 fault isolation -/

/-- C32 (partial): everything before the first raising line has been processed as if the file ended
    there. The full claim - every line is processed - is false, see `C32_refuted`. -/
theorem C32_before_fault_partial (s s' : Str) (pre post : List Str) (l : Str)
    (h : Lines s (pre ++ l :: post)) (h' : Lines s' pre)
    (output : Bool) (legs : Legs) (hl : Grown legs)
    (hok : ∀ l ∈ pre, ∀ e, (parse l output legTypeDesc).res ≠ .error e)
    (e : Exc) (he : (parse l output legTypeDesc).res = .error e) :
    (readFile (.text s') output legs).res = .ok () ∧
    (readFile (.text s) output legs).out =
      (readFile (.text s') output legs).out ++ (parse l output legTypeDesc).out := by
  obtain ⟨h1, h2⟩ := C29_all_lines s' pre h' output legs hl hok
  obtain ⟨_, h4⟩ := C29_first_exception s pre post l h output legs hl hok e he
  exact ⟨h1, by rw [h4, h2]; simp⟩

/-- C32 (partial): the lines after the first raising line have no effect at all. -/
theorem C32_after_fault_partial (s s' : Str) (pre post post' : List Str) (l : Str)
    (h : Lines s (pre ++ l :: post)) (h' : Lines s' (pre ++ l :: post'))
    (output : Bool) (legs : Legs) (hl : Grown legs)
    (e : Exc) (he : (parse l output legTypeDesc).res = .error e) :
    (readFile (.text s) output legs).res = (readFile (.text s') output legs).res ∧
    (readFile (.text s) output legs).out = (readFile (.text s') output legs).out := by
  rw [readFile_lines h, readFile_lines h', parseLines_append, parseLines_append output pre (l :: post')]
  cases hr : (parseLines output pre legs).res with
  | error e => exact ⟨rfl, rfl⟩
  | ok x =>
    have h3 := (parseLines_legs output pre hl).2.2
    obtain ⟨g1, g2, _⟩ := parse_legs l output h3
    simp only [parseLines]
    rw [g1, he]
    exact ⟨rfl, rfl⟩

/-! ## C33 search -/

open Classical in
/-- C33: on a file whose lines all read without raising, `search` prints, line by line, `read`'s own
    diagnostics and the stripped line if it is a hit, and finally the summary with the number of hits. -/
theorem C33_prints (s : Str) (ls : List Str) (h : Lines s ls) (filters : Filters)
    (hok : ∀ l ∈ ls, ∀ e, (Record.new.read l).res ≠ .error e) :
    search (.text s) filters = (.ok (),
      ls.flatMap (fun l => (Record.new.read l).out ++
        (if Hit filters l then [.line (strip l)] else [])) ++
      [.summary (hits filters ls).length filters ((hits filters ls).length != 0)]) := by
  rw [search_lines h, searchLines_ok hok]
  simp

/-- C33: `read` prints diagnostics for a bad continuation number only (C12), so without such lines
    exactly the hits, in file order, and the summary are printed. -/
theorem C33_exact (s : Str) (ls : List Str) (h : Lines s ls) (filters : Filters)
    (hok : ∀ l ∈ ls, ∀ e, (Record.new.read l).res ≠ .error e)
    (hq : ∀ l ∈ ls, ¬ ∃ t k i, BadContinuationNo l t k i) :
    search (.text s) filters = (.ok (), (hits filters ls).map (fun l => .line (strip l)) ++
      [.summary (hits filters ls).length filters ((hits filters ls).length != 0)]) := by
  rw [C33_prints s ls h filters hok]
  congr 2
  clear h hok
  induction ls with
  | nil => rfl
  | cons l ls ih =>
    rw [List.flatMap_cons, ih (fun x hx => hq x (by simp [hx])),
      C12_otherwise_silent Record.new l (hq l (by simp))]
    by_cases hh : Hit filters l
    · have hf : hits filters (l :: ls) = l :: hits filters ls := by
        unfold hits; rw [List.filter_cons_of_pos (by simpa using hh)]
      rw [hf, if_pos hh]; rfl
    · have hf : hits filters (l :: ls) = hits filters ls := by
        unfold hits; rw [List.filter_cons_of_neg (by simpa using hh)]
      rw [hf, if_neg hh]; rfl

/-! ## C34 filter lists

`body out` is what was printed apart from the summary (which names the filters). -/

/-- C34: only the set of filters matters. -/
theorem C34_set (f : FileObj) (ss ss' : List Str) (h : ∀ x, x ∈ ss ↔ x ∈ ss') :
    (search f (.list ss)).1 = (search f (.list ss')).1 ∧
    body (search f (.list ss)).2 = body (search f (.list ss')).2 := by
  unfold search
  cases f.readlines with
  | error e => exact ⟨rfl, rfl⟩
  | ok ls =>
    refine searchLines_congr (fun t => ?_) ls 0 0
    rw [Bool.eq_iff_iff, keep_iff, keep_iff]
    exact ⟨fun g s hs => g s ((h s).2 hs), fun g s hs => g s ((h s).1 hs)⟩

/-- C34: more filters can only remove records. -/
theorem C34_more_filters (f : FileObj) (ss ss' : List Str) (h : ∀ x ∈ ss, x ∈ ss') :
    (search f (.list ss')).1 = (search f (.list ss)).1 ∧
    (body (search f (.list ss')).2).Sublist (body (search f (.list ss)).2) := by
  unfold search
  cases f.readlines with
  | error e => exact ⟨rfl, List.Sublist.refl _⟩
  | ok ls =>
    refine searchLines_mono (fun t => ?_) ls 0 0
    rw [keep_iff, keep_iff]
    exact fun g s hs => g s (h s hs)

/-- C34: a one-element list is the bare string. -/
theorem C34_singleton (f : FileObj) (x : Str) :
    (search f (.list [x])).1 = (search f (.str x)).1 ∧
    body (search f (.list [x])).2 = body (search f (.str x)).2 := by
  unfold search
  cases f.readlines with
  | error e => exact ⟨rfl, rfl⟩
  | ok ls =>
    refine searchLines_congr (fun t => ?_) ls 0 0
    rw [Bool.eq_iff_iff, keep_iff, keep_iff]
    simp [Matches]

/-- C34: the empty list and the empty string print every accepted line. -/
theorem C34_empty (s : Str) (ls : List Str) (h : Lines s ls)
    (hok : ∀ l ∈ ls, ∀ e, (Record.new.read l).res ≠ .error e) :
    body (search (.text s) (.list [])).2 =
      ls.flatMap (fun l => (Record.new.read l).out ++
        (if (Record.new.read l).res = .ok true then [.line (strip l)] else [])) ∧
    body (search (.text s) (.str [])).2 = body (search (.text s) (.list [])).2 := by
  constructor
  · rw [C33_prints s ls h _ hok]
    have hns : ∀ l, body (Record.new.read l).out = (Record.new.read l).out := by
      intro l
      by_cases hb : ∃ t k i, BadContinuationNo l t k i
      · obtain ⟨t, k, i, hb⟩ := hb
        obtain ⟨_, nm, _, ho⟩ := C12_bad_continuation_no Record.new l t k i hb
        rw [ho]; rfl
      · rw [C12_otherwise_silent _ _ hb]; rfl
    simp only [body, List.filter_append]
    have : List.filter notSummary [Event.summary (hits (.list []) ls).length (.list [])
        ((hits (.list []) ls).length != 0)] = [] := rfl
    rw [this, List.append_nil]
    clear h hok this
    induction ls with
    | nil => rfl
    | cons l ls ih =>
      rw [List.flatMap_cons, List.flatMap_cons, List.filter_append, ih, List.filter_append]
      have h1 := hns l
      unfold body at h1
      rw [h1]
      by_cases hh : (Record.new.read l).res = .ok true
      · have : Hit (.list []) l := ⟨hh, by intro x hx; cases hx⟩
        rw [if_pos this, if_pos hh]; rfl
      · have : ¬ Hit (.list []) l := fun g => hh g.1
        rw [if_neg this, if_neg hh]; rfl
  · unfold search
    cases (FileObj.text s).readlines with
    | error e => rfl
    | ok ls =>
      refine (searchLines_congr (fun t => ?_) ls 0 0).2
      rw [Bool.eq_iff_iff, keep_iff, keep_iff]
      simp [Matches]

/-! ## C35 search never decodes -/

open Classical in
/-- C35: `search` raises iff reading some line raises; it is the exception of the first such line, the
    records before it have been printed, and no summary is. -/
theorem C35_raises_iff (s : Str) (ls : List Str) (h : Lines s ls) (filters : Filters) (e : Exc) :
    (search (.text s) filters).1 = .error e ↔
      ∃ pre l post, ls = pre ++ l :: post ∧ (∀ x ∈ pre, ∀ e, (Record.new.read x).res ≠ .error e) ∧
        (Record.new.read l).res = .error e ∧
        (search (.text s) filters).2 = pre.flatMap (fun l => (Record.new.read l).out ++
          (if Hit filters l then [.line (strip l)] else [])) := by
  constructor
  · intro he
    by_cases hok : ∀ l ∈ ls, ∀ e, (Record.new.read l).res ≠ .error e
    · rw [C33_prints s ls h filters hok] at he; cases he
    · obtain ⟨pre, l, post, e', rfl, hpre, hl⟩ := first_error hok
      rw [search_lines h, searchLines_stop hpre hl] at he ⊢
      simp only [Except.error.injEq] at he
      subst he
      exact ⟨pre, l, post, rfl, hpre, hl, rfl⟩
  · rintro ⟨pre, l, post, rfl, hpre, hl, _⟩
    rw [search_lines h, searchLines_stop hpre hl]

/-- C35: so it returns normally iff every line reads without raising, whether or not the records
    could be decoded. -/
theorem C35_returns_iff (s : Str) (ls : List Str) (h : Lines s ls) (filters : Filters) :
    (search (.text s) filters).1 = .ok () ↔ ∀ l ∈ ls, ∀ e, (Record.new.read l).res ≠ .error e := by
  constructor
  · intro hok l hl e he
    have hn : ¬ ∀ l ∈ ls, ∀ e, (Record.new.read l).res ≠ .error e := fun g => g l hl e he
    obtain ⟨pre, x, post, e', rfl, hpre, hx⟩ := first_error hn
    rw [search_lines h, searchLines_stop hpre hx] at hok
    cases hok
  · intro hok
    rw [C33_prints s ls h filters hok]

/-! ## C36 read_folder -/

/-- C36: if no file raises, `read_folder` returns normally and prints what `read_file` prints for each
    entry, in scan order. -/
theorem C36_all_files (fs : List FileObj) (legs : Legs) (hl : Grown legs)
    (hok : ∀ f ∈ fs, ∀ e, (readFile f true legTypeDesc).res ≠ .error e) :
    (readFolder (some fs) legs).res = .ok () ∧
    (readFolder (some fs) legs).out = fs.flatMap (fun f => (readFile f true legTypeDesc).out) :=
  readFiles_ok hok hl

/-- C36: otherwise it stops at the first file that raises, with its exception. -/
theorem C36_first_exception (pre post : List FileObj) (f : FileObj) (legs : Legs) (hl : Grown legs)
    (hok : ∀ f ∈ pre, ∀ e, (readFile f true legTypeDesc).res ≠ .error e)
    (e : Exc) (he : (readFile f true legTypeDesc).res = .error e) :
    (readFolder (some (pre ++ f :: post)) legs).res = .error e ∧
    (readFolder (some (pre ++ f :: post)) legs).out =
      (pre ++ [f]).flatMap (fun f => (readFile f true legTypeDesc).out) :=
  readFiles_stop hok he hl

/-- C36: if no file raises, another scan order gives the same prints up to the order of the files. -/
theorem C36_scan_order (fs fs' : List FileObj) (hp : fs'.Perm fs) (legs legs' : Legs) (hl : Grown legs)
    (hl' : Grown legs') (hok : ∀ f ∈ fs, ∀ e, (readFile f true legTypeDesc).res ≠ .error e) :
    (readFolder (some fs') legs').res = .ok () ∧
    (readFolder (some fs') legs').out.Perm (readFolder (some fs) legs).out ∧
    ∃ outs outs' : List (List Event), outs'.Perm outs ∧ outs.length = fs.length ∧
      (readFolder (some fs) legs).out = outs.flatten ∧
      (readFolder (some fs') legs').out = outs'.flatten := by
  obtain ⟨_, h2⟩ := C36_all_files fs legs hl hok
  obtain ⟨h1', h2'⟩ := C36_all_files fs' legs' hl' (fun f hf => hok f (hp.subset hf))
  refine ⟨h1', ?_, fs.map (fun f => (readFile f true legTypeDesc).out),
    fs'.map (fun f => (readFile f true legTypeDesc).out), hp.map _, by simp, ?_, ?_⟩
  · rw [h2, h2']; exact hp.flatMap_right _
  · rw [h2, List.flatMap_def]
  · rw [h2', List.flatMap_def]

/-- C36: a folder that cannot be listed raises and prints nothing. -/
theorem C36_unreadable (legs : Legs) : readFolder none legs = ⟨.error .osError, [], legs⟩ := rfl

end

/-! ## Refutation of C32 and non-vacuity -/
section
attribute [local instance] Py.Tables.cpython311

/-- C32 is false: in this two-line file the second line is a record `parse` displays, but `read_file`
    displays nothing: it ends with the exception of the first line. -/
theorem C32_refuted : ∃ s l₁ l₂ e, Lines s [l₁, l₂] ∧
    (parse l₂ true legTypeDesc).res = .ok true ∧
    (parse l₂ true legTypeDesc).out ≠ [] ∧
    (readFile (.text s) true legTypeDesc).res = .error e ∧
    ∀ ev ∈ (parse l₂ true legTypeDesc).out, ev ∉ (readFile (.text s) true legTypeDesc).out := by
  refine ⟨Sample.vhfBadFreq ++ 10 :: (Sample.airport ++ 10 :: []), Sample.vhfBadFreq, Sample.airport,
    .systemExit, .lf (by decide +kernel) (.lf (by decide +kernel) .nil), by decide +kernel,
    by decide +kernel, by decide +kernel, by decide +kernel⟩

/-- a text with all three kinds of line ending, a blank line and an unterminated last line -/
def sampleText : Str :=
  Sample.airport ++ 13 :: 10 :: ([] ++ 13 :: (Sample.mora ++ 10 :: (py!"not a record" ++ 10 :: Sample.airway)))

/-- `Lines` (is met) -/
theorem sampleText_lines :
    Lines sampleText [Sample.airport, [], Sample.mora, py!"not a record", Sample.airway] :=
  .crlf (by decide +kernel) (.cr (by decide +kernel) (.lf (by decide +kernel)
    (.lf (by decide +kernel) (.last (by decide +kernel) (by decide +kernel)))) (by decide +kernel))

/-- C29 (hypotheses are met): no line of the sample raises -/
example : ∀ l ∈ [Sample.airport, [], Sample.mora, py!"not a record", Sample.airway],
    ∀ e, (parse l true legTypeDesc).res ≠ .error e := by
  intro l hl e
  have : (match (parse l true legTypeDesc).res with | .ok _ => true | .error _ => false) = true := by
    revert l; decide +kernel
  intro he; rw [he] at this; cases this

/-- C29, C32 (hypotheses are met): the bad frequency line raises -/
example : (parse Sample.vhfBadFreq true legTypeDesc).res = .error .systemExit := by decide +kernel

/-- C29 (hypotheses are met) -/
example : Complete (Sample.airport ++ [10]) Sample.mora := .lf _ _

/-- C30 (hypotheses are met) -/
example : ∀ l ∈ [Sample.airport, [], Sample.mora], NoEOL l := by decide +kernel

/-- C31 (hypotheses are met): a line of the wrong shape -/
example : ¬ (WellShaped (py!"not a record") ∧ ∃ k, Resolves (py!"not a record") k) := by
  rintro ⟨⟨t, hp, hrec⟩, _⟩
  have h0 : t.length = 132 := hrec.1
  rw [← isRecord_strip hp hrec] at h0
  exact absurd h0 (by decide +kernel)

/-- C33, C35 (hypotheses are met): reading the bad-frequency line does not raise, decoding it does -/
example : (∀ e, (Record.new.read Sample.vhfBadFreq).res ≠ .error e) ∧
    (parse Sample.vhfBadFreq true legTypeDesc).res = .error .systemExit :=
  ⟨fun e => by
    have h : (Record.new.read Sample.vhfBadFreq).res = .ok true := by decide +kernel
    rw [h]; exact nofun, by decide +kernel⟩

/-- C33 (is not vacuous): two hits among three records -/
example : search (.text (Sample.airport ++ 10 :: (Sample.mora ++ 10 :: Sample.sid))) (.str (py!"KSEA")) =
    (.ok (), [.line Sample.airport, .line Sample.sid, .summary 2 (.str (py!"KSEA")) true]) := by
  decide +kernel

/-- C34 (is not vacuous): a further filter removes one of them -/
example : search (.text (Sample.airport ++ 10 :: (Sample.mora ++ 10 :: Sample.sid)))
      (.list [py!"KSEA", py!"MOUNT"]) =
    (.ok (), [.line Sample.sid, .summary 1 (.list [py!"KSEA", py!"MOUNT"]) true]) := by
  decide +kernel

/-- C35 (hypotheses are met): a line whose reading raises -/
example : (Record.new.read Sample.airwayContZ).res = .error .valueError := by decide +kernel

/-- C36 (hypotheses are met) -/
example : (readFolder (some [.text sampleText, .text Sample.vhf]) legTypeDesc).res = .ok () ∧
    (readFolder (some [.text sampleText, .text Sample.vhf]) legTypeDesc).out.length = 4 ∧
    (readFolder (some [.text Sample.vhf, .unopenable, .text sampleText]) legTypeDesc).res =
      .error .osError := by decide +kernel

end
end Arinc
