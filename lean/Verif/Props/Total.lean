import Verif.Lemmas.Total
/-!
# C85, C86: any value and any line whatsoever

Which texts are numbers (`Spec/Number.lean`), and what becomes of every field, line, file and folder, whatever its
characters and however its numbers are written (`Spec/Total.lean`).
-/
namespace Arinc
open Py Spec Spec.Std

section
variable [PyUnicode]

/-! ## C85 numbers -/

/-- C85: `float` accepts exactly the texts of the grammar, and gives the number they denote. -/
theorem C85_float (s : Str) (x : Dbl) : pyFloat s = .ok x ↔ FloatText s x := pyFloat_iff

/-- C85: and so does `int`. -/
theorem C85_int (s : Str) (i : Int) : pyInt s = .ok i ↔ IntText s i := pyInt_iff

/-- C85: every number that is not negative is rounded to one double, and with either sign. -/
theorem C85_rounding (neg : Bool) {q : ℚ} (hq : 0 ≤ q) : ∃! x, Rounds neg q x := by
  obtain ⟨n, hn⟩ := Int.eq_ofNat_of_zero_le (Rat.num_nonneg.2 hq)
  have e : q = (n : ℚ) / q.den := by
    conv_lhs => rw [← Rat.num_div_den q, hn]
    rfl
  have h : Rounds neg q (roundDbl neg n q.den) := by
    have := roundDbl_rounds (neg := neg) (num := n) q.den_pos
    rwa [← e] at this
  exact ⟨_, h, fun y hy => rounds_unique hy h⟩

/-- C85: a text denotes one number only. -/
theorem C85_unique (s : Str) : (∀ x y, FloatText s x → FloatText s y → x = y) ∧
    ∀ i j, IntText s i → IntText s j → i = j := by
  refine ⟨fun x y hx hy => ?_, fun i j hi hj => ?_⟩
  · have h1 := pyFloat_iff.2 hx; have h2 := pyFloat_iff.2 hy; rw [h1] at h2; cases h2; rfl
  · have h1 := pyInt_iff.2 hi; have h2 := pyInt_iff.2 hj; rw [h1] at h2; cases h2; rfl

theorem float_not_blank {s : Str} {x : Lit} (h : FloatLit s x) : ¬ AllSpace s := by
  intro hs
  cases h with
  | @mk t sg u neg _ hsp hg hsg hu =>
    obtain ⟨h1, h2, _⟩ := unsigned_ends hu
    obtain ⟨pre, post, rfl, _, _⟩ := hsp
    have hne : t ≠ [] := by
      rintro rfl
      generalize hq : sg ++ u = q at hg
      cases hg
      exact h1 (List.append_eq_nil_iff.1 hq).2
    cases t with
    | nil => exact hne rfl
    | cons c t =>
      have hh := grouped_head hg
      have hc : isSpace c = true := hs c (by simp)
      have hnum : ¬ NumSpace c := sign_head hsg hh.symm (fun d hd => (h2 d hd).1)
      have h28 : 28 ≤ c ∧ c ≤ 31 := by
        by_cases h : 28 ≤ c ∧ c ≤ 31
        · exact h
        · exact absurd ⟨hc, h⟩ hnum
      -- the first character of a number is a sign, a digit, a point or a letter
      have hcases : (c = 43 ∨ c = 45) ∨ u.head? = some c := by
        cases hsg with
        | none => exact .inr (by simpa using hh.symm)
        | plus => cases hh; exact .inl (.inl rfl)
        | minus => cases hh; exact .inl (.inr rfl)
      rcases hcases with h | h
      · omega
      · have word : ∀ {w : Str}, (∀ c ∈ w, 97 ≤ c ∧ c ≤ 122) → SameWord u w → False := by
          intro w hw hsw
          have := word_ends hw hsw c (List.mem_of_mem_head? h)
          omega
        cases hu with
        | inf hw => rcases hw with hw | hw <;> exact word (by decide) hw
        | nan hw => exact word (by decide) hw
        | number hn =>
          rcases (decimalText_ends hn).2.1 c h with hd | rfl
          · have := dec_ascii hd (by omega); omega
          · omega

theorem float_not_T {w : Str} {l : Lit} : ¬ FloatLit (84 :: w) l := by
  intro hx
  cases hx with
  | @mk t sg u neg _ hsp hg hsg hu =>
    obtain ⟨pre, post, he, hpre, _⟩ := hsp
    obtain ⟨h1, h2, _⟩ := unsigned_ends hu
    have hne : t ≠ [] := by
      rintro rfl
      generalize hq : sg ++ u = q at hg
      cases hg
      exact h1 (List.append_eq_nil_iff.1 hq).2
    cases pre with
    | cons p pre =>
      cases he
      exact absurd (hpre 84 (by simp)) (letter_not_space (by omega))
    | nil =>
      cases t with
      | nil => exact hne rfl
      | cons a t =>
        simp only [List.nil_append, List.cons_append, List.cons.injEq] at he
        obtain ⟨rfl, _⟩ := he
        have hh := grouped_head hg
        have hu84 : u.head? = some 84 := by
          cases hsg with
          | none => simpa using hh.symm
          | plus => cases hh
          | minus => cases hh
        have word : ∀ {w : Str}, asciiLower 84 ≠ w.head?.getD 0 → w ≠ [] → SameWord u w → False := by
          intro w hw hwne hsw
          cases u with
          | nil => cases hu84
          | cons b u =>
            cases hu84
            unfold SameWord at hsw
            cases w with
            | nil => cases hsw
            | cons d w =>
              simp only [List.map_cons, List.cons.injEq] at hsw
              exact hw hsw.1
        cases hu with
        | inf hw => rcases hw with hw | hw <;> exact word (by decide) (by decide) hw
        | nan hw => exact word (by decide) (by decide) hw
        | number hn =>
          rcases (decimalText_ends hn).2.1 84 hu84 with hd | h
          · have := dec_ascii hd (by omega); omega
          · omega

/-- C85: a threshold crossing height may be any text of a number, and is shown divided by ten; any other text, blanks
    aside, raises `ValueError`. -/
theorem C85_crossing_height (v : Str) (rec : RecInfo) (legs : Legs) :
    (∀ x y, FloatText v x → QuotientOf 10 x y → (runDec .f269 v rec legs).res = .ok (.float y)) ∧
    (¬ IsFloat v → ¬ AllSpace v → (runDec .f269 v rec legs).res = .error .valueError) := by
  have e : (runDec .f269 v rec legs).res = field_269 v := rfl
  rw [e]
  unfold field_269
  refine ⟨fun x y hx hy => ?_, fun hn hb => ?_⟩
  · rw [pyFloat_iff.2 hx]
    obtain ⟨l, hl, _⟩ := hx
    rw [if_pos (mt strip_nil_iff.1 (float_not_blank hl)), ← (divNat_iff (by omega)).2 hy]; rfl
  · rw [if_pos (mt strip_nil_iff.1 hb), not_isFloat hn]; rfl

/-- C85: a distance may be any text of a number, which does not begin with `T`, and a holding time any text of a number
    after `T`: both are shown divided by ten, with one decimal and the unit. Anything else raises `ValueError`. -/
theorem C85_distance (v : Str) (rec : RecInfo) (legs : Legs) (hb : ¬ AllSpace v) :
    (∀ x y s, FloatText (strip v) x → QuotientOf 10 x y → FixedText 1 y s →
      (runDec .f027 v rec legs).res = .ok (.str (s ++ py!" nm"))) ∧
    (∀ w x y s, strip v = py!"T" ++ w → FloatText w x → QuotientOf 10 x y → FixedText 1 y s →
      (runDec .f027 v rec legs).res = .ok (.str (s ++ py!" min"))) ∧
    (¬ IsFloat (strip v) → (∀ w, strip v = py!"T" ++ w → ¬ IsFloat w) →
      (runDec .f027 v rec legs).res = .error .valueError) := by
  have e : (runDec .f027 v rec legs).res = field_027 v := rfl
  rw [e]
  unfold field_027
  have hs : (strip v).length > 0 := List.length_pos_iff.2 (mt strip_nil_iff.1 hb)
  simp only [if_pos hs]
  generalize strip v = s at hs
  cases s with
  | nil => simp at hs
  | cons c w =>
    rw [index_cons_zero]
    refine ⟨fun x y s hx hy ht => ?_, fun w' x y s hw hx hy ht => ?_, fun hn hn' => ?_⟩
    · have h84 : c ≠ 84 := by
        rintro rfl
        obtain ⟨l, hl, _⟩ := hx
        exact float_not_T hl
      show (if [c] = (py!"T") then _ else (pyFloat (c :: w) >>= _)) = _
      rw [if_neg (by intro e; cases e; exact h84 rfl), pyFloat_iff.2 hx, ← (fmt_iff (by omega)).2 ht,
        ← (divNat_iff (by omega)).2 hy]
      rfl
    · obtain ⟨rfl, rfl⟩ : c = 84 ∧ w = w' := by simpa using hw
      show (pyFloat w >>= _) = _
      rw [pyFloat_iff.2 hx, ← (fmt_iff (by omega)).2 ht, ← (divNat_iff (by omega)).2 hy]; rfl
    · by_cases h84 : c = 84
      · subst h84
        show (pyFloat w >>= _) = _
        rw [not_isFloat (hn' w rfl)]; rfl
      · show (if [c] = (py!"T") then _ else (pyFloat (c :: w) >>= _)) = _
        rw [if_neg (by intro e; cases e; exact h84 rfl), not_isFloat hn]
        rfl

/-! ## C86 any line -/

/-- C86: result and messages of every field that has the width it has in the records, in any process. -/
theorem C86_field (fn : DecFn) (v : Str) (rec : RecInfo) {legs : Legs} (hl : Grown legs)
    (hw : fullWidth fn v.length = true) (res : Except Exc PyVal) (out : List Event) :
    ((runDec fn v rec legs).res = res ∧ (runDec fn v rec legs).out = out) ↔
      Gives rec.ident rec.raw fn v res out := (gives_iff fn v rec hl hw res out).symm

theorem decodeRows_tells {info : RecInfo} {line : Str} {fs : List StdField}
    (hw : ∀ f ∈ fs, fullWidth f.shown.2 (pick line f.shown.1).length = true) {legs : Legs} (hl : Grown legs) :
    Tells info.ident info.raw line fs
      (decodeRows info (fs.map fun f => ⟨f.name, pick line f.shown.1, f.shown.2⟩) legs).res
      (decodeRows info (fs.map fun f => ⟨f.name, pick line f.shown.1, f.shown.2⟩) legs).out := by
  induction fs generalizing legs with
  | nil => exact .nil
  | cons f fs ih =>
    have hv := (gives_iff f.shown.2 (pick line f.shown.1) info hl (hw f (by simp)) _ _).2 ⟨rfl, rfl⟩
    obtain ⟨_, _, hg⟩ := runDec_legs f.shown.2 (pick line f.shown.1) info hl
    have ih := ih (fun g hg => hw g (by simp [hg])) hg
    simp only [List.map_cons, decodeRows]
    cases hr : (runDec f.shown.2 (pick line f.shown.1) info legs).res with
    | error e => rw [hr] at hv; exact .raised hv
    | ok x =>
      rw [hr] at hv
      simp only
      cases hd : (decodeRows info (fs.map fun f => ⟨f.name, pick line f.shown.1, f.shown.2⟩)
          (runDec f.shown.2 (pick line f.shown.1) info legs).legs).res with
      | error e => rw [hd] at ih; exact .later hv ih
      | ok rows => rw [hd] at ih; exact .shown hv ih

theorem tells_unique {k t line : Str} {fs : List StdField}
    (hw : ∀ f ∈ fs, fullWidth f.shown.2 (pick line f.shown.1).length = true)
    {r r' : Except Exc (List Row)} {o o' : List Event} (h : Tells k t line fs r o) (h' : Tells k t line fs r' o') :
    r = r' ∧ o = o' := by
  induction h generalizing r' o' with
  | nil => cases h'; exact ⟨rfl, rfl⟩
  | raised h =>
    cases h' with
    | raised g => obtain ⟨e, rfl⟩ := gives_unique (hw _ (by simp)) h g; cases e; exact ⟨rfl, rfl⟩
    | shown g _ => cases (gives_unique (hw _ (by simp)) h g).1
    | later g _ => cases (gives_unique (hw _ (by simp)) h g).1
  | shown h _ ih =>
    cases h' with
    | raised g => cases (gives_unique (hw _ (by simp)) h g).1
    | shown g u =>
      obtain ⟨e, rfl⟩ := gives_unique (hw _ (by simp)) h g
      cases e
      obtain ⟨e, rfl⟩ := ih (fun f hf => hw f (by simp [hf])) u
      cases e
      exact ⟨rfl, rfl⟩
    | later g u => cases (ih (fun f hf => hw f (by simp [hf])) u).1
  | later h _ ih =>
    cases h' with
    | raised g => cases (gives_unique (hw _ (by simp)) h g).1
    | shown g u => cases (ih (fun f hf => hw f (by simp [hf])) u).1
    | later g u =>
      obtain ⟨e, rfl⟩ := gives_unique (hw _ (by simp)) h g
      obtain ⟨e, rfl⟩ := ih (fun f hf => hw f (by simp [hf])) u
      cases e
      exact ⟨rfl, rfl⟩

theorem record_width {line t k : Str} {fs : List StdField} (h : FateOf [] line (.record t k fs)) :
    ∀ f ∈ fs, fullWidth f.shown.2 (pick line f.shown.1).length = true := by
  cases h with
  | record h => exact isLine_width (r := Record.new) h

theorem lineDoes_parse (line : Str) (output : Bool) {legs : Legs} (hl : Grown legs) :
    LineDoes output line (parse line output legs).res (parse line output legs).out := by
  obtain ⟨f, hf⟩ := fate_exists [] line
  have hf' : FateOf Record.new.continuation line f := hf
  obtain ⟨h1, h2, h3⟩ := fate_read hf'
  by_cases hr : f.returns = .ok true
  · obtain ⟨t, k, fs, rfl, hline⟩ := fate_of_true hf hr
    simp only [Fate.leaves, Prod.mk.injEq] at h3
    obtain ⟨hraw, hid, hfs⟩ := h3
    have hT := decodeRows_tells (info := (Record.new.read line).obj.info) (record_width hf) hl
    have hi : (Record.new.read line).obj.info.ident = k := hid
    have hw : (Record.new.read line).obj.info.raw = t := hraw
    rw [hi, hw, ← hfs] at hT
    cases hd : (decodeRows (Record.new.read line).obj.info (Record.new.read line).obj.fields legs).res with
    | ok rows =>
      rw [hd] at hT
      have e1 : (parse line output legs).res = .ok true := by
        simp only [parse, h1, hr, Record.decode, hd]
      have e2 : (parse line output legs).out =
          (decodeRows (Record.new.read line).obj.info (Record.new.read line).obj.fields legs).out ++
            if output then [.table rows] else [] := by
        simp only [parse, h1, hr, h2, Record.decode, hd, Fate.prints, List.nil_append]
        cases output <;> simp
      rw [e1, e2]
      exact .shown hf hT
    | error e =>
      rw [hd] at hT
      have e1 : (parse line output legs).res = .error e := by
        simp only [parse, h1, hr, Record.decode, hd]
      have e2 : (parse line output legs).out =
          (decodeRows (Record.new.read line).obj.info (Record.new.read line).obj.fields legs).out := by
        simp only [parse, h1, hr, h2, Record.decode, hd, Fate.prints, List.nil_append]
      rw [e1, e2]
      exact .failed hf hT
  · have e : (parse line output legs).res = f.returns ∧ (parse line output legs).out = f.prints := by
      unfold parse
      simp only [h1]
      cases hq : f.returns with
      | error e => exact ⟨rfl, h2⟩
      | ok b =>
        cases b with
        | false => exact ⟨rfl, h2⟩
        | true => exact absurd hq hr
    rw [e.1, e.2]
    exact .other hf hr

theorem lineDoes_unique {line : Str} {output : Bool} {r r' : Except Exc Bool} {o o' : List Event}
    (h : LineDoes output line r o) (h' : LineDoes output line r' o') : r = r' ∧ o = o' := by
  cases h with
  | shown h ht =>
    cases h' with
    | shown g gt =>
      cases fate_unique h g
      obtain ⟨e, rfl⟩ := tells_unique (record_width h) ht gt
      cases e
      exact ⟨rfl, rfl⟩
    | failed g gt =>
      cases fate_unique h g
      cases (tells_unique (record_width h) ht gt).1
    | other g gf =>
      cases fate_unique h g
      exact absurd rfl gf
  | failed h ht =>
    cases h' with
    | shown g gt =>
      cases fate_unique h g
      cases (tells_unique (record_width h) ht gt).1
    | failed g gt =>
      cases fate_unique h g
      obtain ⟨e, rfl⟩ := tells_unique (record_width h) ht gt
      cases e
      exact ⟨rfl, rfl⟩
    | other g gf =>
      cases fate_unique h g
      exact absurd rfl gf
  | other h hf =>
    cases h' with
    | shown g gt =>
      cases fate_unique h g
      exact absurd rfl hf
    | failed g gt =>
      cases fate_unique h g
      exact absurd rfl hf
    | other g gf =>
      cases fate_unique h g
      exact ⟨rfl, rfl⟩

/-- C86: `parse` of any line whatsoever does exactly what the specification says. -/
theorem C86_parse (line : Str) (output : Bool) {legs : Legs} (hl : Grown legs) (res : Except Exc Bool)
    (out : List Event) :
    ((parse line output legs).res = res ∧ (parse line output legs).out = out) ↔ LineDoes output line res out := by
  have hp := lineDoes_parse line output hl
  exact ⟨fun ⟨h1, h2⟩ => h1 ▸ h2 ▸ hp, fun h => lineDoes_unique hp h⟩

theorem fileDoes_lines (ls : List Str) (output : Bool) {legs : Legs} (hl : Grown legs) :
    FileDoes output ls (parseLines output ls legs).res (parseLines output ls legs).out := by
  induction ls generalizing legs with
  | nil => exact .done
  | cons l ls ih =>
    have hp := lineDoes_parse l output hl
    have ih := ih (legs := (parse l output legs).legs) (parse_legs l output hl).2.2
    unfold parseLines
    simp only
    cases hq : (parse l output legs).res with
    | error e => rw [hq] at hp; exact .stop hp
    | ok b => rw [hq] at hp; exact .line hp ih

theorem fileDoes_unique {ls : List Str} {output : Bool} {r r' : Except Exc Unit} {o o' : List Event}
    (h : FileDoes output ls r o) (h' : FileDoes output ls r' o') : r = r' ∧ o = o' := by
  induction h generalizing r' o' with
  | done => cases h'; exact ⟨rfl, rfl⟩
  | line h t ih =>
    cases h' with
    | line g u =>
      obtain ⟨_, rfl⟩ := lineDoes_unique h g
      obtain ⟨rfl, rfl⟩ := ih u
      exact ⟨rfl, rfl⟩
    | stop g => cases (lineDoes_unique h g).1
  | stop h =>
    cases h' with
    | line g u => cases (lineDoes_unique h g).1
    | stop g =>
      obtain ⟨e, rfl⟩ := lineDoes_unique h g
      cases e
      exact ⟨rfl, rfl⟩

/-- C86: and so does `read_file` with any text. -/
theorem C86_read_file {s : Str} {ls : List Str} (hs : Lines s ls) (output : Bool) {legs : Legs} (hl : Grown legs)
    (res : Except Exc Unit) (out : List Event) :
    ((readFile (.text s) output legs).res = res ∧ (readFile (.text s) output legs).out = out) ↔
      FileDoes output ls res out := by
  have hp := fileDoes_lines ls output hl
  rw [← readFile_lines hs] at hp
  exact ⟨fun ⟨h1, h2⟩ => h1 ▸ h2 ▸ hp, fun h => fileDoes_unique hp h⟩

theorem folderDoes_files (fs : List FileObj) {legs : Legs} (hl : Grown legs) :
    FolderDoes fs (readFiles fs legs).res (readFiles fs legs).out := by
  induction fs generalizing legs with
  | nil => exact .done
  | cons f fs ih =>
    unfold readFiles
    simp only
    cases f with
    | unopenable => exact .unopenable
    | undecodable => exact .undecodable
    | text s =>
      obtain ⟨ls, hs⟩ := lines_exist s
      have hp := fileDoes_lines ls true hl
      rw [← readFile_lines hs] at hp
      have ih := ih (legs := (readFile (.text s) true legs).legs) (readFile_legs (.text s) true hl).2.2
      cases hq : (readFile (.text s) true legs).res with
      | error e => rw [hq] at hp; exact .stop hs hp
      | ok b => rw [hq] at hp; exact .file hs hp ih

theorem folderDoes_unique {fs : List FileObj} {r r' : Except Exc Unit} {o o' : List Event}
    (h : FolderDoes fs r o) (h' : FolderDoes fs r' o') : r = r' ∧ o = o' := by
  induction h generalizing r' o' with
  | done => cases h'; exact ⟨rfl, rfl⟩
  | file hs h t ih =>
    cases h' with
    | file gs g u =>
      cases lines_unique hs gs
      obtain ⟨_, rfl⟩ := fileDoes_unique h g
      obtain ⟨rfl, rfl⟩ := ih u
      exact ⟨rfl, rfl⟩
    | stop gs g => cases lines_unique hs gs; cases (fileDoes_unique h g).1
  | stop hs h =>
    cases h' with
    | file gs g u => cases lines_unique hs gs; cases (fileDoes_unique h g).1
    | stop gs g =>
      cases lines_unique hs gs
      obtain ⟨e, rfl⟩ := fileDoes_unique h g
      cases e
      exact ⟨rfl, rfl⟩
  | unopenable => cases h'; exact ⟨rfl, rfl⟩
  | undecodable => cases h'; exact ⟨rfl, rfl⟩

/-- C86: and `read_folder` with any folder. -/
theorem C86_read_folder (fs : List FileObj) {legs : Legs} (hl : Grown legs) (res : Except Exc Unit)
    (out : List Event) :
    ((readFolder (some fs) legs).res = res ∧ (readFolder (some fs) legs).out = out) ↔ FolderDoes fs res out := by
  have hp := folderDoes_files fs hl
  exact ⟨fun ⟨h1, h2⟩ => h1 ▸ h2 ▸ hp, fun h => folderDoes_unique hp h⟩

/-- C86: for ASCII characters and numbers written with digits this is what the simpler specification says. -/
theorem C86_agrees {line : Str} (ha : Ascii line) (hu : Usual line) (output : Bool) (res : Except Exc Bool)
    (out : List Event) : LineDoes output line res out ↔ LineRun output line res out :=
  (C86_parse line output grown_init res out).symm.trans (C79_parse ha hu output grown_init res out)

end
/-! ## Examples -/
section
attribute [local instance] Py.Tables.cpython311

/-- C85 (hypotheses are met): white space, underscores, a point and an exponent; digits of another script; words -/
example : FloatText (py!" 1_0.5e1 ") (.fin false (105 * 2 ^ 46) (-46)) ∧ FloatText [1633, 1634] (.fin false (3 * 2 ^ 51) (-49)) ∧
    FloatText (py!"-Infinity") (.inf true) ∧ FloatText (py!"nan") .nan ∧ IntText (py!" +1_000 ") 1000 :=
  ⟨(C85_float _ _).1 (by decide +kernel), (C85_float _ _).1 (by decide +kernel), (C85_float _ _).1 (by decide +kernel),
    (C85_float _ _).1 (by decide +kernel), (C85_int _ _).1 (by decide +kernel)⟩

/-- C85: texts that are no numbers: a superscript, two underscores, two points, a number in hexadecimal, nothing -/
example : ¬ IsFloat [178] ∧ ¬ IsFloat (py!"1__0") ∧ ¬ IsFloat (py!"1.2.3") ∧ ¬ IsFloat (py!"0x10") ∧ ¬ IsFloat [] ∧
    ¬ IsInt (py!"1.0") ∧ ¬ IsInt (py!"1 0") := by
  have hf : ∀ s, pyFloat s = .error .valueError → ¬ IsFloat s := fun s h ⟨x, hx⟩ => by
    rw [pyFloat_of hx] at h; cases h
  have hi : ∀ s, pyInt s = .error .valueError → ¬ IsInt s := fun s h ⟨x, hx⟩ => by
    rw [pyInt_iff.2 hx] at h; cases h
  exact ⟨hf _ (by decide +kernel), hf _ (by decide +kernel), hf _ (by decide +kernel), hf _ (by decide +kernel),
    hf _ (by decide +kernel), hi _ (by decide +kernel), hi _ (by decide +kernel)⟩

/-- C85: a crossing height of `1e3` is 100 feet, a holding time of `T+15` is one and a half minutes, a distance of
    `-inf` is shown as it is, and `T` alone is an error -/
example : (runDec .f269 (py!"1e3") ⟨[], []⟩ []).res = .ok (.float (.fin false (100 * 2 ^ 46) (-46))) ∧
    (runDec .f027 (py!"T+15") ⟨[], []⟩ []).res = .ok (.str (py!"1.5 min")) ∧
    (runDec .f027 (py!"-inf") ⟨[], []⟩ []).res = .ok (.str (py!"-inf nm")) ∧
    (runDec .f027 (py!"T   ") ⟨[], []⟩ []).res = .error .valueError := by decide +kernel

/-- C86: a leg time in Arabic digits is one minute and twelve seconds; a superscript is numeric, but no number -/
example : Gives [] [] .f065 [1633, 1634] (.ok (.str (py!"1m 12s"))) [] ∧
    Gives [] [] .f045 [178, 178, 178, 178, 178] (.error .valueError) [] :=
  ⟨(C86_field .f065 [1633, 1634] ⟨[], []⟩ grown_init (by decide) _ _).1 (by decide +kernel),
    (C86_field .f045 [178, 178, 178, 178, 178] ⟨[], []⟩ grown_init (by decide) _ _).1 (by decide +kernel)⟩

/-- the airport record with its variation written `E٠١٩٩` -/
def arabicAirport : Str := py!"SUSAP KSEAK1ASEA     110000119Y N47265700W122182910E" ++ [1632, 1633, 1641, 1641] ++
  py!"00429250SEA K11800018000CU00Y NAS    SEATTLE-TACOMA INTL           045698808"

/-- C86: it is read, and shown as `019.9` is, for the line is not ASCII but a record all the same -/
example : ∃ out, LineDoes true arabicAirport (.ok true) out ∧ ¬ Ascii arabicAirport := by
  refine ⟨(parse arabicAirport true legTypeDesc).out, (C86_parse _ _ grown_init _ _).1 ⟨by decide +kernel, rfl⟩, ?_⟩
  unfold Ascii; decide +kernel

/-- C86: with superscripts instead, `ValueError` is raised -/
example : LineDoes true (arabicAirport.map fun c => if 1632 ≤ c then 178 else c) (.error .valueError) [] :=
  (C86_parse _ _ grown_init _ _).1 (by decide +kernel)

/-- C86: and a file that has such a line in the middle stops there -/
example : FileDoes false [py!"  ", arabicAirport.map fun c => if 1632 ≤ c then 178 else c, Sample.airport]
    (.error .valueError) [] := by
  have h1 : LineDoes false (py!"  ") (.ok false) [] := (C86_parse _ _ grown_init _ _).1 (by decide +kernel)
  exact .line h1 (.stop ((C86_parse _ _ grown_init _ _).1 (by decide +kernel)))

end
end Arinc
