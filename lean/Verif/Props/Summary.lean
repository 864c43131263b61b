import Verif.Lemmas.Summary
import Verif.Props.Files
import Verif.Py.Printable
/-!
# Properties: the text of the summary of a search

`printable` says which characters above 127 take their place on a line (`str.isprintable`); the theorems hold for any.
-/
namespace Arinc
open Py Spec

variable {printable : Nat → Bool}

/-- **C99** The last thing that a search of a file prints is the summary. For a list of filters its text is the number
    of records found, in decimal, and a list display that Python reads back as that list and as no other. -/
theorem C99_reads [PyUnicode] (printable : Nat → Bool) {s : Str} {ls : List Str} (h : Lines s ls) {ss : List Str}
    (hok : ∀ l ∈ ls, ∀ e, (Record.new.read l).res ≠ .error e) (hs : ∀ s ∈ ss, ∀ c ∈ s, c < 0x110000) :
    ∃ n t, (search (.text s) (.list ss)).2.getLast? =
        some (.summary (hits (.list ss) ls).length (.list ss) ((hits (.list ss) ls).length != 0)) ∧
      summaryText printable (hits (.list ss) ls).length (.list ss) =
        some (py!"Found " ++ n ++ py!" records that contain " ++ t) ∧
      Decimal n (hits (.list ss) ls).length ∧ PyLitList t ss ∧ ∀ ss', PyLitList t ss' → ss' = ss := by
  have hl := litList_repr printable ss hs
  refine ⟨_, _, ?_, rfl, natStr_decimal _, hl, fun ss' h' => litList_unique h' hl⟩
  rw [C33_prints s ls h _ hok, List.getLast?_concat]

/-- **C99** Whatever the filters are, two summaries with the same text give the same count. -/
theorem C99_count {n m : Nat} {a b : Filters} {t : Str} (ha : summaryText printable n a = some t)
    (hb : summaryText printable m b = some t) : n = m := by
  simp only [summaryText, Option.map_eq_some_iff] at ha hb
  obtain ⟨x, _, rfl⟩ := ha
  obtain ⟨y, _, h⟩ := hb
  exact (summary_front h).1.symm

/-- **C99** Two summaries of searches for a string with the same text are of the same string, and two summaries of
    searches for a list of strings with the same text are of the same list.
    Missing for the full claim: a string can look like a list (`C99_refuted`). -/
theorem C99_tells_partial {n m : Nat} {t : Str} :
    (∀ s s', summaryText printable n (.str s) = some t → summaryText printable m (.str s') = some t →
      n = m ∧ s = s') ∧
    (∀ ss ss', (∀ s ∈ ss, ∀ c ∈ s, c < 0x110000) → (∀ s ∈ ss', ∀ c ∈ s, c < 0x110000) →
      summaryText printable n (.list ss) = some t → summaryText printable m (.list ss') = some t →
      n = m ∧ ss = ss') := by
  constructor
  · intro s s' h h'
    simp only [summaryText, Filters.shown, Option.map_some, Option.some.injEq] at h h'
    exact summary_front (h.trans h'.symm)
  · intro ss ss' hs hs' h h'
    simp only [summaryText, Filters.shown, Option.map_some, Option.some.injEq] at h h'
    obtain ⟨h1, h2⟩ := summary_front (h.trans h'.symm)
    refine ⟨h1, litList_unique (litList_repr printable ss hs) ?_⟩
    rw [h2]
    exact litList_repr printable ss' hs'

/-- **C99** The summary is one line, without control characters and without characters that cannot be shown, for every
    list of filters, and for a string that has none of them.
    Missing for the full claim: a string with a line feed in it (`C99_refuted`). -/
theorem C99_one_line_partial {n : Nat} {filters : Filters} {t : Str}
    (h : summaryText printable n filters = some t)
    (hs : ∀ s, filters = .str s → ∀ c ∈ s, (32 ≤ c ∧ c ≤ 126) ∨ (127 < c ∧ printable c = true)) :
    ∀ c ∈ t, (32 ≤ c ∧ c ≤ 126) ∨ (127 < c ∧ printable c = true) := by
  simp only [summaryText, Option.map_eq_some_iff] at h
  obtain ⟨x, hx, rfl⟩ := h
  have hx' : ∀ c ∈ x, (32 ≤ c ∧ c ≤ 126) ∨ (127 < c ∧ printable c = true) := by
    cases filters with
    | str s =>
      simp only [Filters.shown, Option.some.injEq] at hx
      subst hx
      exact hs s rfl
    | list ss =>
      simp only [Filters.shown, Option.some.injEq] at hx
      subst hx
      intro c hc
      simp only [List.mem_cons, List.mem_append, List.not_mem_nil, or_false] at hc
      rcases hc with rfl | hc | rfl
      · exact .inl (by omega)
      · exact reprElems_onLine printable ss c hc
      · exact .inl (by omega)
    | other => simp [Filters.shown] at hx
  intro c hc
  simp only [List.mem_append] at hc
  rcases hc with ((hc | hc) | hc) | hc
  · left; revert hc c; decide
  · have := (natStr_decimal n).1.2.1 c hc
    exact .inl (by omega)
  · left; revert hc c; decide
  · exact hx' c hc

/-- **C99** Filters without quotes, backslashes and unprintable characters are shown as they are: the string itself,
    the strings of a list between single quotes. -/
theorem C99_verbatim (printable : Nat → Bool) (n : Nat) :
    (∀ s, summaryText printable n (.str s) = some (py!"Found " ++ natStr n ++ py!" records that contain " ++ s)) ∧
    ∀ ss : List Str,
      (∀ s ∈ ss, ∀ c ∈ s, ((32 ≤ c ∧ c ≤ 126) ∨ (127 < c ∧ printable c = true)) ∧ c ≠ 39 ∧ c ≠ 92) →
      summaryText printable n (.list ss) =
        some (py!"Found " ++ natStr n ++ py!" records that contain [" ++
          List.intercalate (py!", ") (ss.map fun s => py!"'" ++ s ++ py!"'") ++ py!"]") := by
  refine ⟨fun _ => rfl, fun ss h => ?_⟩
  have : ∀ ss : List Str,
      (∀ s ∈ ss, ∀ c ∈ s, ((32 ≤ c ∧ c ≤ 126) ∨ (127 < c ∧ printable c = true)) ∧ c ≠ 39 ∧ c ≠ 92) →
      reprElems printable ss = List.intercalate (py!", ") (ss.map fun s => py!"'" ++ s ++ py!"'") := by
    intro ss
    induction ss with
    | nil => intro _; rfl
    | cons s ss ih =>
      intro h
      cases ss with
      | nil => rw [reprElems, reprStr_plain printable (h s (by simp))]; simp [List.intercalate]
      | cons t ss =>
        rw [reprElems, reprStr_plain printable (h s (by simp)), ih (fun u hu => h u (by simp [hu]))]
        simp [List.intercalate]
  simp only [summaryText, Filters.shown, Option.map_some, this ss h]
  simp

/-- **C99** A filter of a list with an apostrophe in it, otherwise as above, is shown as it is, between double quotes; if it
    has a double quote too, it is between single quotes, with a backslash before each apostrophe. -/
theorem C99_quotes (printable : Nat → Bool) (n : Nat) (s : Str)
    (h : ∀ c ∈ s, ((32 ≤ c ∧ c ≤ 126) ∨ (127 < c ∧ printable c = true)) ∧ c ≠ 92) (ha : 39 ∈ s) :
    summaryText printable n (.list [s]) = some (py!"Found " ++ natStr n ++ py!" records that contain [" ++
      (if 34 ∈ s then py!"'" ++ s.flatMap (fun c => if c = 39 then py!"\\'" else [c]) ++ py!"'" else py!"\"" ++ s ++ py!"\"") ++
      py!"]") := by
  have key : ∀ q, ∀ t : Str, (∀ c ∈ t, ((32 ≤ c ∧ c ≤ 126) ∨ (127 < c ∧ printable c = true)) ∧ c ≠ 92) →
      t.flatMap (reprChar printable q) = t.flatMap fun c => if c = q then [92, c] else [c] := by
    intro q t
    induction t with
    | nil => intro _; rfl
    | cons c t ih =>
      intro h
      obtain ⟨h1, h2⟩ := h c (by simp)
      rw [List.flatMap_cons, List.flatMap_cons, ih fun d hd => h d (by simp [hd])]
      congr 1
      unfold reprChar
      by_cases hq : c = q
      · simp [hq]
      · have e1 : ¬ (c = q ∨ c = 92) := by omega
        have e2 : c ≠ 9 := by omega
        have e3 : c ≠ 10 := by omega
        have e4 : c ≠ 13 := by omega
        have e5 : ¬ (c < 32 ∨ c = 127) := by omega
        rw [if_neg e1, if_neg e2, if_neg e3, if_neg e4, if_neg e5, if_neg hq]
        split
        · rfl
        · rcases h1 with h1 | h1
          · omega
          · rw [if_pos h1.2]
  simp only [summaryText, Filters.shown, Option.map_some, reprElems, reprStr]
  by_cases hd : 34 ∈ s
  · have hq : reprQuote s = 39 := by simp [reprQuote, hd]
    have : (fun c => if c = 39 then ([92, c] : Str) else [c]) = fun c => if c = 39 then [92, 39] else [c] := by
      funext c; split <;> simp_all
    rw [hq, key 39 s h, this]
    simp [hd]
  · have hq : reprQuote s = 34 := by simp [reprQuote, hd, ha]
    have : ∀ t : Str, 34 ∉ t → (t.flatMap fun c => if c = 34 then ([92, c] : Str) else [c]) = t := by
      intro t
      induction t with
      | nil => intro _; rfl
      | cons c t ih =>
        intro ht
        simp only [List.mem_cons, not_or] at ht
        rw [List.flatMap_cons, ih ht.2, if_neg (fun e => ht.1 e.symm)]
        rfl
    rw [hq, key 34 s h, this s hd]
    simp [hd]

section
attribute [local instance] Py.Tables.cpython311

-- the hypotheses of `C99_quotes` are met, with and without a double quote
example : (∀ c ∈ (py!"O'HARE"), ((32 ≤ c ∧ c ≤ 126) ∨ (127 < c ∧ Tables.printable311 c = true)) ∧ c ≠ 92) ∧ 39 ∈ (py!"O'HARE") ∧
    summaryText Tables.printable311 0 (.list [py!"6' 2\""]) = some (py!"Found 0 records that contain ['6\\' 2\"']") := by
  decide +kernel

/-- the hypotheses are met: a search for two strings, one with a quote in it -/
example :
    let ss := [py!"KSEA", py!"MOUNT"]
    search (.text (Sample.airport ++ [10] ++ Sample.sid)) (.list ss) =
      (.ok (), [.line Sample.sid, .summary 1 (.list ss) true]) ∧
    summaryText Tables.printable311 1 (.list ss) = some (py!"Found 1 records that contain ['KSEA', 'MOUNT']") ∧
    summaryText Tables.printable311 12 (.list [py!"O'HARE", [233, 10, 8232, 128512]]) =
      some (py!"Found 12 records that contain [\"O'HARE\", '" ++ [233] ++ py!"\\n\\u2028" ++ [128512] ++ py!"']") := by
  decide +kernel

/-- **C99, the full claim does not hold**: "the summary says on one line what was searched for". A search for the
    string `['KSEA']` and a search for the list `['KSEA']` are different searches: here the first finds nothing and the
    second finds a record. Their summaries have the same text whenever they find the same number. The summary of a
    search for a string with a line feed in it is two lines. -/
theorem C99_refuted :
    let a := Filters.str (py!"['KSEA']")
    let b := Filters.list [py!"KSEA"]
    search (.text Sample.airport) a = (.ok (), [.summary 0 a false]) ∧
    search (.text Sample.airport) b = (.ok (), [.line Sample.airport, .summary 1 b true]) ∧
    (∀ n, summaryText Tables.printable311 n a = summaryText Tables.printable311 n b) ∧
    search (.text Sample.airport) (.str [65, 10, 66]) = (.ok (), [.summary 0 (.str [65, 10, 66]) false]) ∧
    summaryText Tables.printable311 0 (.str [65, 10, 66]) =
      some (py!"Found 0 records that contain A" ++ [10] ++ py!"B") := by
  refine ⟨by decide +kernel, by decide +kernel, fun n => ?_, by decide +kernel, by decide +kernel⟩
  have : Filters.shown Tables.printable311 (.str (py!"['KSEA']")) =
    Filters.shown Tables.printable311 (.list [py!"KSEA"]) := by decide +kernel
  simp only [summaryText, this]

end
end Arinc
