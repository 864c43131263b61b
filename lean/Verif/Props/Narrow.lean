import Verif.Spec.Narrow
import Verif.Props.Stdout
import Verif.Lemmas.Live
/-!
# C113: narrowing a search
-/
namespace Arinc
open Py Spec

section
variable [PyUnicode]

theorem effs_silent {us : List Str} (h : ∀ t ∈ us, Record.new.read t = ⟨.ok false, Record.new, []⟩) (ts : List Str) :
    effs (us ++ ts) = effs ts := by
  induction us with
  | nil => rfl
  | cons u us ih =>
    rw [List.cons_append, effs_cons, ih fun t ht => h t (by simp [ht])]
    simp [effs, h u (by simp), ReadOut.silent]

omit [PyUnicode] in
/-- the texts of complaints: lines that are no records -/
theorem notices_texts [PyUnicode] (sc : Screen) {out : List Event} (h : ∀ e ∈ out, Notice (fun c => c ≠ 10 ∧ c ≠ 13) e) :
    ∃ ts, out.mapM (Event.text sc) = some ts ∧ (∀ t ∈ ts, NoEOL t) ∧
      ∀ t ∈ ts, Record.new.read t = ⟨.ok false, Record.new, []⟩ := by
  have hP : HasPrintable (fun c => c ≠ 10 ∧ c ≠ 13) := fun c hc => by omega
  induction out with
  | nil => exact ⟨[], by simp, by simp, by simp⟩
  | cons e out ih =>
    obtain ⟨ts, h1, h2, h3⟩ := ih fun e he => h e (by simp [he])
    obtain ⟨t, ht, hov, c, u, rfl, hc⟩ := notice_text hP (sc := sc) (h e (by simp))
    refine ⟨(c :: u) :: ts, by rw [List.mapM_cons, ht, h1]; rfl, ?_, ?_⟩
    · intro t ht
      rcases List.mem_cons.1 ht with rfl | ht
      · exact hov
      · exact h2 t ht
    · intro t ht
      rcases List.mem_cons.1 ht with rfl | ht
      · have : ∀ c ∈ [85, 86, 82, 102, 69], isSpace c = false ∧ c ≠ 83 ∧ c ≠ 84 := by decide
        exact not_record (this c hc).1 (this c hc).2 _
      · exact h3 t ht

open Classical in
/-- the texts of what `search` prints before the summary come to the same as the records found -/
theorem found_effs (sc : Screen) {filters : Filters} {ls : List Str} (hn : ∀ l ∈ ls, NoEOL l) :
    ∃ ts, (ls.flatMap fun l => (Record.new.read l).out ++ (if Hit filters l then [Event.line (strip l)] else [])).mapM
        (Event.text sc) = some ts ∧ (∀ t ∈ ts, NoEOL t) ∧ effs ts = effs ((hits filters ls).map strip) := by
  have hP : HasPrintable (fun c => c ≠ 10 ∧ c ≠ 13) := fun c hc => by omega
  induction ls with
  | nil => exact ⟨[], by simp, by simp, rfl⟩
  | cons l ls ih =>
    obtain ⟨ts, h1, h2, h3⟩ := ih fun l hl => hn l (by simp [hl])
    obtain ⟨us, g1, g2, g3⟩ := notices_texts sc (read_notice hP (r := Record.new) (line := l) (hn l (by simp)))
    by_cases hh : Hit filters l
    · refine ⟨us ++ strip l :: ts, ?_, ?_, ?_⟩
      · rw [List.flatMap_cons, if_pos hh, List.append_assoc]
        exact texts_append g1 (by rw [List.singleton_append, List.mapM_cons, h1]; rfl)
      · intro t ht
        simp only [List.mem_append, List.mem_cons] at ht
        rcases ht with ht | rfl | ht
        · exact g2 t ht
        · exact noEOL_strip (hn l (by simp))
        · exact h2 t ht
      · rw [effs_silent g3, hits_cons_pos hh, List.map_cons, effs_cons, h3, ← effs_cons]
    · refine ⟨us ++ ts, ?_, ?_, ?_⟩
      · rw [List.flatMap_cons, if_neg hh, List.append_nil]
        exact texts_append g1 h1
      · intro t ht
        rcases List.mem_append.1 ht with ht | ht
        · exact g2 t ht
        · exact h2 t ht
      · rw [effs_silent g3, hits_cons_neg hh, h3]

theorem before_ok (ls : List Str) : ∀ l ∈ before ls, ∀ e, (Record.new.read l).res ≠ .error e := by
  intro l hl e he
  have := List.all_eq_true.1 (List.all_takeWhile (l := ls) (p := raisesNothing)) l hl
  unfold raisesNothing at this
  rw [he] at this
  cases this

open Classical in
/-- what `search` prints: as for the lines before an exception, then the summary if there is none -/
theorem search_prints {s : Str} {ls : List Str} (h : Lines s ls) (filters : Filters) :
    ∃ tail, (search (.text s) filters).2 = (before ls).flatMap (fun l => (Record.new.read l).out ++
        (if Hit filters l then [.line (strip l)] else [])) ++ tail ∧
      (tail = [] ∨ ∃ n g, tail = [.summary n filters g]) := by
  rw [search_lines h]
  have hd : before ls ++ ls.dropWhile raisesNothing = ls := List.takeWhile_append_dropWhile
  cases hr : ls.dropWhile raisesNothing with
  | nil =>
    rw [hr, List.append_nil] at hd
    have hb := before_ok ls
    rw [hd] at hb ⊢
    exact ⟨_, by rw [searchLines_ok hb], .inr ⟨_, _, rfl⟩⟩
  | cons x rest =>
    have hx : raisesNothing x = false := by
      have := List.head?_dropWhile_not raisesNothing ls
      rw [hr] at this
      simpa using this
    unfold raisesNothing at hx
    cases he : (Record.new.read x).res with
    | ok b => rw [he] at hx; cases hx
    | error e =>
      rw [hr] at hd
      refine ⟨[], ?_, .inl rfl⟩
      conv_lhs => rw [← hd]
      rw [searchLines_stop (before_ok ls) he, List.append_nil]

theorem before_subset {ls : List Str} {l : Str} (h : l ∈ before ls) : l ∈ ls := (List.takeWhile_sublist _).subset h

omit [PyUnicode] in
theorem fileOf_lines {ls : List Str} (h : ∀ l ∈ ls, NoEOL l) : Lines (fileOf ls) ls := by
  have := lines_terminated (eol := [10]) (.inl rfl) h noEOL_nil
  simpa [fileOf] using this

/-- C113: What a search wrote to standard output (with colours or without, whether or not it ended with an exception) is an
    extract: read or searched as a file it does what a file with just the records found does. The complaints and the summary
    in it do not matter. The filter must not be a string with line ends, because the summary contains it. -/
theorem C113_extract {s : Str} {ls : List Str} (h : Lines s ls) {filters : Filters}
    (hf : ∀ x, filters = .str x → NoEOL x) {sc : Screen} {written : Str}
    (hw : stdoutText sc (search (.text s) filters).2 = some written) :
    (∀ (output : Bool) (legs : Legs), readFile (.text written) output legs =
      readFile (.text (fileOf ((hits filters (before ls)).map strip))) output legs) ∧
    ∀ filters' : Filters, search (.text written) filters' =
      search (.text (fileOf ((hits filters (before ls)).map strip))) filters' := by
  have hn : ∀ l ∈ before ls, NoEOL l := fun l hl => lines_noEOL h l (before_subset hl)
  obtain ⟨ts, h1, h2, h3⟩ := found_effs sc (filters := filters) hn
  obtain ⟨tail, he, ht⟩ := search_prints h filters
  have key : ∃ us, Lines written (ts ++ us) ∧ ∀ t ∈ us, Record.new.read t = ⟨.ok false, Record.new, []⟩ := by
    rw [he] at hw
    unfold stdoutText at hw
    obtain ⟨vs, hvs, rfl⟩ := Option.map_eq_some_iff.1 hw
    rw [List.mapM_append, h1] at hvs
    rcases ht with rfl | ⟨n, g, rfl⟩
    · simp at hvs
      subst hvs
      refine ⟨[], ?_, by simp⟩
      have := fileOf_lines h2
      simpa [fileOf, terminated] using this
    · simp only [Option.bind_eq_bind, Option.bind_some, Option.bind_eq_some_iff, Option.pure_def, Option.some.injEq,
        List.mapM_cons, List.mapM_nil] at hvs
      obtain ⟨_, ⟨u, hu, _, rfl, rfl⟩, rfl⟩ := hvs
      obtain ⟨g1, c, t, rfl, g2, g3⟩ := summary_line hf hu
      refine ⟨[c :: t], ?_, ?_⟩
      · have := fileOf_lines (ls := ts ++ [c :: t]) (fun x hx => by
          rcases List.mem_append.1 hx with hx | hx
          · exact h2 x hx
          · simp at hx; subst hx; exact g1)
        simpa [fileOf, terminated] using this
      · intro x hx
        simp at hx; subst hx
        exact not_record g2 g3 _
  obtain ⟨us, hL, hus⟩ := key
  have heffs : effs (ts ++ us) = effs ((hits filters (before ls)).map strip) := by
    have := effs_silent hus []
    rw [List.append_nil] at this
    rw [effs_append, this, h3]
    simp [effs]
  have hL' := fileOf_lines (ls := (hits filters (before ls)).map strip) (fun t ht => by
    obtain ⟨l, hl, rfl⟩ := List.mem_map.1 ht
    exact noEOL_strip (hn l (hits_mem hl).1))
  exact ⟨fun output legs => by rw [readFile_lines hL, readFile_lines hL', parseLines_effs output heffs],
    fun f => by rw [search_lines hL, search_lines hL', searchLines_effs f heffs]⟩

/-- C113: If the records found have no blanks in front, the extract does what a file with these lines, as they were, does. -/
theorem C113_lines {s : Str} {ls : List Str} (h : Lines s ls) {filters : Filters}
    (hf : ∀ x, filters = .str x → NoEOL x) (hlead : ∀ l ∈ before ls, Hit filters l → NoLeadingSpace l)
    {sc : Screen} {written : Str} (hw : stdoutText sc (search (.text s) filters).2 = some written) :
    (∀ (output : Bool) (legs : Legs), readFile (.text written) output legs =
      readFile (.text (fileOf (hits filters (before ls)))) output legs) ∧
    ∀ filters' : Filters, search (.text written) filters' =
      search (.text (fileOf (hits filters (before ls)))) filters' := by
  obtain ⟨a1, a2⟩ := C113_extract h hf hw
  have hn : ∀ l ∈ hits filters (before ls), NoEOL l := fun l hl => lines_noEOL h l (before_subset (hits_mem hl).1)
  have hL := fileOf_lines hn
  have hL' := fileOf_lines (ls := (hits filters (before ls)).map strip) (fun t ht => by
    obtain ⟨l, hl, rfl⟩ := List.mem_map.1 ht
    exact noEOL_strip (hn l hl))
  have heffs : effs ((hits filters (before ls)).map strip) = effs (hits filters (before ls)) := by
    unfold effs
    rw [List.map_map]
    congr 1
    refine List.map_congr_left fun l hl => ?_
    obtain ⟨hm, hh⟩ := hits_mem hl
    exact (read_strip (hlead l hm hh) _).symm
  exact ⟨fun output legs => by rw [a1, readFile_lines hL, readFile_lines hL', parseLines_effs output heffs],
    fun f => by rw [a2, search_lines hL, search_lines hL', searchLines_effs f heffs]⟩

/-- C113: So a second search in what the first wrote finds the records that satisfy both. -/
theorem C113_narrow {s : Str} {ls : List Str} (h : Lines s ls) {filters : Filters}
    (hf : ∀ x, filters = .str x → NoEOL x) (hlead : ∀ l ∈ before ls, Hit filters l → NoLeadingSpace l)
    {sc : Screen} {written : Str} (hw : stdoutText sc (search (.text s) filters).2 = some written) (filters' : Filters) :
    search (.text written) filters' =
      (.ok (), (hits filters' (hits filters (before ls))).map (fun l => .line (strip l)) ++
        [.summary (hits filters' (hits filters (before ls))).length filters'
          ((hits filters' (hits filters (before ls))).length != 0)]) := by
  have hn : ∀ l ∈ hits filters (before ls), NoEOL l := fun l hl => lines_noEOL h l (before_subset (hits_mem hl).1)
  rw [(C113_lines h hf hlead hw).2]
  have hacc : ∀ l ∈ hits filters (before ls), (Record.new.read l).res = .ok true := fun l hl => (hits_mem hl).2.1
  refine C33_exact _ _ (fileOf_lines hn) filters' (fun l hl e => by rw [hacc l hl]; simp) ?_
  rintro l hl ⟨t, k, i, hb⟩
  have := hacc l hl
  rw [(C12_bad_continuation_no Record.new _ _ _ _ hb).1] at this
  cases this

/-- C113: For lists, these are the records that one search with all the texts finds. -/
theorem C113_both (ss ss' : List Str) (ls : List Str) :
    hits (.list ss') (hits (.list ss) ls) = hits (.list (ss ++ ss')) ls := by
  classical
  unfold hits
  rw [List.filter_filter]
  refine List.filter_congr fun l _ => ?_
  rw [← Bool.decide_and]
  refine decide_eq_decide.2 ⟨?_, ?_⟩
  · rintro ⟨⟨h1, h2⟩, -, h3⟩
    exact ⟨h1, fun x hx => (List.mem_append.1 hx).elim (h3 x) (h2 x)⟩
  · rintro ⟨h1, h2⟩
    exact ⟨⟨h1, fun x hx => h2 x (List.mem_append_right _ hx)⟩, h1, fun x hx => h2 x (List.mem_append_left _ hx)⟩

/-- C113: A search for parts of the texts finds at least as much, in the same order. -/
theorem C113_weaker (f : FileObj) (ss ss' : List Str) (h : ∀ x ∈ ss, ∃ y ∈ ss', x <:+: y) :
    (search f (.list ss')).1 = (search f (.list ss)).1 ∧
    (body (search f (.list ss')).2).Sublist (body (search f (.list ss)).2) := by
  unfold search
  cases f.readlines with
  | error e => exact ⟨rfl, List.Sublist.refl _⟩
  | ok ls =>
    refine searchLines_mono (fun t => ?_) ls 0 0
    rw [keep_iff, keep_iff]
    intro g x hx
    obtain ⟨y, hy, hxy⟩ := h x hx
    exact hxy.trans (g y hy)

end

section
attribute [local instance] Py.Tables.cpython311

/-- a screen with colours on which every character is one column wide -/
def Sample.screen : Screen := ⟨fun s => s.length, fun _ => true, true⟩

/-- three records, of which two contain K1 and one of these SEATTLE, and a record with a bad continuation number -/
def Sample.four : Str := fileOf [Sample.airport, Sample.airportBadCont, Sample.vhf, Sample.terminalNdb]

/-- The first search writes two records, three lines about the bad one and the summary; the second finds one of the two. -/
example : ∃ written, stdoutText Sample.screen (search (.text Sample.four) (.str (py!"K1"))).2 = some written ∧
    search (.text written) (.list [py!"SEATTLE", py!"KSEA"]) =
      (.ok (), [.line Sample.airport, .summary 1 (.list [py!"SEATTLE", py!"KSEA"]) true]) ∧
    (search (.text Sample.four) (.str (py!"K1"))).2.length = 6 := by decide +kernel

/-- The condition on the filter is necessary: a search for a text with a record in it finds nothing, but what it writes
    contains the record. -/
example : ∃ written, stdoutText Sample.screen (search (.text Sample.vhf) (.str (10 :: Sample.airport ++ [10]))).2 =
      some written ∧
    (search (.text Sample.vhf) (.str (10 :: Sample.airport ++ [10]))).2 =
      [.summary 0 (.str (10 :: Sample.airport ++ [10])) false] ∧
    search (.text written) (.str (py!"SEATTLE")) = (.ok (), [.line Sample.airport, .summary 1 (.str (py!"SEATTLE")) true]) := by
  decide +kernel

end
end Arinc
