import Verif.Lemmas.Fate
import Verif.Props.EndToEnd
/-!
# C77 - C82: what becomes of every line

The complete behaviour of `read`, `parse`, `read_file`, `search` and `json`, in terms of the text (`Spec/Fate.lean`).
-/
namespace Arinc
open Py Spec Spec.Std

section
variable [PyUnicode]

/-! ## C77 the fate of a line -/

/-- C77: every line has exactly one fate. -/
theorem C77_one_fate (before line : Str) : ∃ f, FateOf before line f ∧ ∀ g, FateOf before line g → g = f := by
  obtain ⟨f, hf⟩ := fate_exists before line
  exact ⟨f, hf, fun g hg => fate_unique hg hf⟩

/-- C77: it determines what `read` returns, prints and leaves in the object. -/
theorem C77_read {r : Record} {line : Str} {f : Fate} (h : FateOf r.continuation line f) :
    (r.read line).res = f.returns ∧ (r.read line).out = f.prints ∧
    ((r.read line).obj.raw, (r.read line).obj.ident, (r.read line).obj.fields) =
      f.leaves line (r.raw, r.ident, r.fields) := fate_read h

/-! ## C78 fields without a meaning -/

theorem runDec_silent (fn : DecFn) (v : Str) (rec : RecInfo) (legs : Legs)
    (h : fn ≠ .f034 ∧ fn ≠ .f065 ∧ fn ≠ .f118) : (runDec fn v rec legs).out = [] := by
  cases fn
  case f034 => exact absurd rfl h.1
  case f065 => exact absurd rfl h.2.1
  case f118 => exact absurd rfl h.2.2
  case ident n => simp only [runDec]; split <;> rfl
  case f021 =>
    show (field_021 v legs).out = []
    unfold field_021
    simp only
    repeat' split
    all_goals rfl
  all_goals rfl

theorem legTime_complaint {v : Str} (ha : Ascii v)
    (h : ¬ ∃ a b rest, v = a :: b :: rest ∧ (48 ≤ a ∧ a ≤ 57) ∧ 48 ≤ b ∧ b ≤ 57) :
    legTime v = .error (legComplaint v) := by
  have hint : ∀ c, 48 ≤ c ∧ c ≤ 57 → ∃ m, pyInt [c] = .ok m := by
    intro c hc
    have hd : Digits [c] := ⟨by simp, fun d hd => by
      simp only [List.mem_singleton] at hd; subst hd; exact isDigit_iff.2 hc⟩
    exact ⟨_, pyInt_digits hd (by simp)⟩
  unfold legTime
  match v, ha, h with
  | [], _, _ => rfl
  | [a], ha, _ =>
    have h1 : index [a] 1 = .error .indexError := rfl
    simp only [index_cons_zero, h1, legComplaint]
    by_cases hd : 48 ≤ a ∧ a ≤ 57
    · obtain ⟨m, hm⟩ := hint a hd
      simp only [hm, if_pos hd]
    · simp only [pyInt_bad (ha a (by simp)) hd, if_neg hd]
  | a :: b :: rest, ha, h =>
    simp only [index_cons_zero, index_cons_one, legComplaint]
    by_cases hd : 48 ≤ a ∧ a ≤ 57
    · obtain ⟨m, hm⟩ := hint a hd
      have hb : ¬ (48 ≤ b ∧ b ≤ 57) := fun hb => h ⟨a, b, rest, rfl, hd, hb⟩
      simp only [hm, pyInt_bad (ha b (by simp)) hb, if_pos hd]
    · simp only [pyInt_bad (ha a (by simp)) hd, if_neg hd]

theorem verdict_of (fn : DecFn) (v : Str) (rec : RecInfo) {legs : Legs} (hl : Grown legs) (ha : classed fn = true → Ascii v)
    (hw : fullWidth fn v.length = true) (hu : ¬ Unusual fn v) :
    match verdict rec.ident rec.raw fn v with
    | .shown x out => (runDec fn v rec legs).res = x.value ∧ (runDec fn v rec legs).out = out
    | .raised e out => (runDec fn v rec legs).res = .error e ∧ (runDec fn v rec legs).out = out := by
  have hw' : widthOK fn v.length = true := by
    cases fn <;> simp_all [fullWidth, widthOK] <;> omega
  unfold verdict
  cases hm : meaning rec.ident fn v with
  | some x =>
    exact meaning_of fn v rec hl ha (fun n hn => by subst hn; simpa [fullWidth] using hw) hm
  | none =>
    by_cases h34 : fn = .f034
    · subst h34
      have hm' : meaningOther rec.ident .f034 v = none := hm
      simp only [meaningOther] at hm'
      have hlen : (strip v).length ≤ 15 := by
        have := strip_length_le v; simp only [fullWidth, decide_eq_true_eq] at hw; omega
      rw [if_pos hlen] at hm'
      have hb : ¬ strip v = [] := fun hb => by
        rw [if_pos (blank_iff.2 (strip_nil_iff.1 hb))] at hm'; cases hm'
      have hn : isNumeric (strip v) = false := by
        cases hn : isNumeric (strip v) with
        | false => rfl
        | true =>
          obtain ⟨n, hn⟩ := number_of_isNumeric (ascii_strip (ha rfl)) hn
          rw [hn] at hm'
          split at hm' <;> cases hm'
      have e : field_034 v rec.ident rec.raw = (.error .systemExit,
          [.line (py!"Unsupported VOR/NDB Frequency: \"" ++ strip v ++ py!"\""),
           .line (py!"from record type \"" ++ rec.ident ++ py!"\": \"" ++ rec.raw ++ py!"\"")]) := by
        unfold field_034
        simp only
        rw [if_pos (List.length_pos_iff.2 hb), if_pos hn]
      have e' : runDec .f034 v rec legs = noisy legs (field_034 v rec.ident rec.raw) := rfl
      rw [e', e]
      exact ⟨rfl, rfl⟩
    · by_cases h65 : fn = .f065
      · subst h65
        have hm' : meaningOther rec.ident .f065 v = none := hm
        simp only [meaningOther] at hm'
        split at hm'
        · cases hm'
        · next hb =>
          have hno : ¬ ∃ a b rest, v = a :: b :: rest ∧ (48 ≤ a ∧ a ≤ 57) ∧ 48 ≤ b ∧ b ≤ 57 := by
            rintro ⟨a, b, rest, rfl, h1, h2⟩
            have n1 : number [a] = some (a - 48) := by simp [number, h1, digitSum]
            have n2 : number [b] = some (b - 48) := by simp [number, h2, digitSum]
            simp only [n1, n2] at hm'
            cases hm'
          have e : field_065 v = (ret (py!"Invalid Value: \"" ++ v ++ py!"\""),
              [.legTime v (legComplaint v)]) := by
            unfold field_065
            rw [if_neg (fun h => hb (blank_iff.2 (strip_nil_iff.1 h))), legTime_complaint (ha rfl) hno]
          have e' : runDec .f065 v rec legs = noisy legs (field_065 v) := rfl
          rw [e', e]
          exact ⟨rfl, rfl⟩
      · by_cases h118 : fn = .f118
        · subst h118
          have hm' : meaningOther rec.ident .f118 v = none := hm
          simp only [fullWidth, decide_eq_true_eq] at hw
          match v, hw, hm' with
          | a :: b :: rest, _, hm' =>
            simp only [meaningOther] at hm'
            obtain ⟨_, _, h3⟩ := C61_boundary_via a b rest
            cases hn : boundaryVias.lookup [a] with
            | some s => rw [hn] at hm'; cases hm'
            | none => rw [h3 (lookup_none hn) rec legs]; exact ⟨rfl, rfl⟩
        · have hout := runDec_silent fn v rec legs ⟨h34, h65, h118⟩
          have hres : (runDec fn v rec legs).res = .error .valueError := by
            rcases complete_of fn v rec legs ha hw hm with ⟨e, he⟩ | h | h
            · rcases runDec_spec fn v rec legs hw' with ⟨_, x, hx⟩ | ⟨_, hx⟩
              · rw [hx] at he; cases he
              · rw [hx]
                unfold excOf
                split
                · exact absurd rfl h34
                · rfl
            · exact absurd hout h
            · exact absurd h hu
          cases fn
          case f034 => exact absurd rfl h34
          case f065 => exact absurd rfl h65
          case f118 => exact absurd rfl h118
          all_goals exact ⟨hres, hout⟩

/-- C78: every value of ASCII characters (numbers written in unusual ways aside) is shown or refused as the
    specification says, with the messages it says, and no others. -/
theorem C78_verdict (fn : DecFn) (v : Str) (rec : RecInfo) {legs : Legs} (hl : Grown legs) (ha : Ascii v)
    (hw : fullWidth fn v.length = true) (hu : ¬ Unusual fn v) :
    match verdict rec.ident rec.raw fn v with
    | .shown x out => (runDec fn v rec legs).res = x.value ∧ (runDec fn v rec legs).out = out
    | .raised e out => (runDec fn v rec legs).res = .error e ∧ (runDec fn v rec legs).out = out :=
  verdict_of fn v rec hl (fun _ => ha) hw hu

/-! ## C79 parse and read_file -/

theorem rowsOf_exists (xs : List (Str × Str × Reading)) : ∃ rows, TableOf xs rows := by
  unfold TableOf
  induction xs with
  | nil => exact ⟨[], rfl⟩
  | cons x xs ih =>
    obtain ⟨rows, hr⟩ := ih
    obtain ⟨y, hy⟩ := value_ok x.2.2
    exact ⟨⟨x.1, py!"'" ++ x.2.1 ++ py!"'", y⟩ :: rows, by simp [hr, hy]⟩

theorem rowsOf_unique {xs : List (Str × Str × Reading)} {rows rows' : List Row} (h : TableOf xs rows)
    (h' : TableOf xs rows') : rows = rows' := by
  refine (List.map_inj_right ?_).1 (h.trans h'.symm)
  rintro ⟨a, b, c⟩ ⟨a', b', c'⟩ e
  simp only [Prod.mk.injEq, Except.ok.injEq] at e
  obtain ⟨rfl, rfl, rfl⟩ := e
  rfl

theorem decodeRows_tell {info : RecInfo} {line : Str} (ha : Ascii line) {fs : List StdField}
    (hw : ∀ f ∈ fs, fullWidth f.shown.2 (pick line f.shown.1).length = true)
    (hu : ∀ f ∈ fs, ¬ Unusual f.shown.2 (pick line f.shown.1)) {legs : Legs} (hl : Grown legs) :
    match tell info.ident info.raw line fs with
    | (.ok xs, out) => ∃ rows, TableOf xs rows ∧
      (decodeRows info (fs.map fun f => ⟨f.name, pick line f.shown.1, f.shown.2⟩) legs).res = .ok rows ∧
      (decodeRows info (fs.map fun f => ⟨f.name, pick line f.shown.1, f.shown.2⟩) legs).out = out
    | (.error e, out) =>
      (decodeRows info (fs.map fun f => ⟨f.name, pick line f.shown.1, f.shown.2⟩) legs).res = .error e ∧
      (decodeRows info (fs.map fun f => ⟨f.name, pick line f.shown.1, f.shown.2⟩) legs).out = out := by
  induction fs generalizing legs with
  | nil => exact ⟨[], rfl, rfl, rfl⟩
  | cons f fs ih =>
    have hv := C78_verdict f.shown.2 (pick line f.shown.1) info hl (fun c hc => ha c (mem_of_mem_pick hc))
      (hw f (by simp)) (hu f (by simp))
    obtain ⟨_, _, hg⟩ := runDec_legs f.shown.2 (pick line f.shown.1) info hl
    have ih := ih (fun g hg => hw g (by simp [hg])) (fun g hg => hu g (by simp [hg])) hg
    simp only [tell]
    cases hvd : verdict info.ident info.raw f.shown.2 (pick line f.shown.1) with
    | raised e out =>
      rw [hvd] at hv
      simp only [List.map_cons, decodeRows, hv.1, hv.2, and_self]
    | shown x out =>
      rw [hvd] at hv
      obtain ⟨y, hy⟩ := value_ok x
      simp only [hy] at hv
      cases ht : tell info.ident info.raw line fs with
      | mk res out' =>
        rw [ht] at ih
        cases res with
        | error e =>
          simp only at ih
          simp only [List.map_cons, decodeRows, hv.1, hv.2, ih.1, ih.2]
          exact ⟨rfl, trivial⟩
        | ok xs =>
          obtain ⟨rows, i1, i2, i3⟩ := ih
          refine ⟨⟨f.name, py!"'" ++ pick line f.shown.1 ++ py!"'", y⟩ :: rows, ?_, ?_, ?_⟩
          · unfold TableOf at i1 ⊢; simp [i1, hy]
          · simp only [List.map_cons, decodeRows, hv.1, i2]; rfl
          · simp only [List.map_cons, decodeRows, hv.1, hv.2, i2, i3]

theorem isLine_width {r : Record} {line t k : Str} {fs : List StdField} (h : IsLine r.continuation line t k fs) :
    ∀ f ∈ fs, fullWidth f.shown.2 (pick line f.shown.1).length = true := by
  intro f hf
  have hacc := (C75_accepted_iff r line).2 ⟨_, _, _, h⟩
  exact C74_widths r line hacc ⟨f.name, pick line f.shown.1, f.shown.2⟩
    (by rw [(C75_read h).2.2.2.1]; exact List.mem_map.2 ⟨f, hf, rfl⟩)

theorem fate_of_true {before line : Str} {f : Fate} (h : FateOf before line f) (hr : f.returns = .ok true) :
    ∃ t k fs, f = .record t k fs ∧ IsLine before line t k fs := by
  cases h with
  | record h => exact ⟨_, _, _, rfl, h⟩
  | _ => cases hr

theorem lineRun_parse {line : Str} (ha : Ascii line) (hu : Usual line) (output : Bool) {legs : Legs}
    (hl : Grown legs) : LineRun output line (parse line output legs).res (parse line output legs).out := by
  obtain ⟨f, hf⟩ := fate_exists [] line
  have hf' : FateOf Record.new.continuation line f := hf
  obtain ⟨h1, h2, h3⟩ := fate_read hf'
  by_cases hr : f.returns = .ok true
  · obtain ⟨t, k, fs, rfl, hline⟩ := fate_of_true hf hr
    simp only [Fate.leaves, Prod.mk.injEq] at h3
    obtain ⟨hraw, hid, hfs⟩ := h3
    have hT := decodeRows_tell (info := (Record.new.read line).obj.info) ha
      (isLine_width (r := Record.new) hline) (hu t k fs hline) hl
    have hi : (Record.new.read line).obj.info.ident = k := hid
    have hw : (Record.new.read line).obj.info.raw = t := hraw
    rw [hi, hw, ← hfs] at hT
    cases ht : tell k t line fs with
    | mk res out =>
      rw [ht] at hT
      cases res with
      | ok xs =>
        obtain ⟨rows, t1, t2, t3⟩ := hT
        have e1 : (parse line output legs).res = .ok true := by
          simp only [parse, h1, hr, Record.decode, t2]
        have e2 : (parse line output legs).out = out ++ if output then [.table rows] else [] := by
          simp only [parse, h1, hr, h2, Record.decode, t2, t3, Fate.prints, List.nil_append]
          cases output <;> simp
        rw [e1, e2]
        exact .shown hf ht t1
      | error e =>
        obtain ⟨t2, t3⟩ := hT
        have e1 : (parse line output legs).res = .error e := by
          simp only [parse, h1, hr, Record.decode, t2]
        have e2 : (parse line output legs).out = out := by
          simp only [parse, h1, hr, h2, Record.decode, t2, t3, Fate.prints, List.nil_append]
        rw [e1, e2]
        exact .failed hf ht
  · have e : (parse line output legs).res = f.returns ∧ (parse line output legs).out = f.prints := by
      unfold parse
      simp only [h1]
      cases hq : f.returns with
      | error e => exact ⟨rfl, h2⟩
      | ok b =>
        cases b with
        | false => exact ⟨rfl, h2⟩
        | true => exact absurd hq hr
    rw [e.1, e.2]
    exact .other hf hr

theorem lineRun_unique {line : Str} {output : Bool} {r r' : Except Exc Bool} {o o' : List Event}
    (h : LineRun output line r o) (h' : LineRun output line r' o') : r = r' ∧ o = o' := by
  cases h with
  | shown h ht hr =>
    cases h' with
    | shown g gt gr =>
      cases fate_unique h g
      rw [ht] at gt
      cases gt
      cases rowsOf_unique hr gr
      exact ⟨rfl, rfl⟩
    | failed g gt =>
      cases fate_unique h g
      rw [ht] at gt
      cases gt
    | other g gf =>
      cases fate_unique h g
      exact absurd rfl gf
  | failed h ht =>
    cases h' with
    | shown g gt gr =>
      cases fate_unique h g
      rw [ht] at gt
      cases gt
    | failed g gt =>
      cases fate_unique h g
      rw [ht] at gt
      cases gt
      exact ⟨rfl, rfl⟩
    | other g gf =>
      cases fate_unique h g
      exact absurd rfl gf
  | other h hf =>
    cases h' with
    | shown g gt gr =>
      cases fate_unique h g
      exact absurd rfl hf
    | failed g gt =>
      cases fate_unique h g
      exact absurd rfl hf
    | other g gf =>
      cases fate_unique h g
      exact ⟨rfl, rfl⟩

/-- C79: `parse` of a line of ASCII characters (without numbers written in unusual ways) does exactly what the
    specification says. -/
theorem C79_parse {line : Str} (ha : Ascii line) (hu : Usual line) (output : Bool) {legs : Legs} (hl : Grown legs)
    (res : Except Exc Bool) (out : List Event) :
    ((parse line output legs).res = res ∧ (parse line output legs).out = out) ↔ LineRun output line res out := by
  have hp := lineRun_parse ha hu output hl
  exact ⟨fun ⟨h1, h2⟩ => h1 ▸ h2 ▸ hp, fun h => lineRun_unique hp h⟩

theorem fileRun_lines {ls : List Str} (ha : ∀ l ∈ ls, Ascii l) (hu : ∀ l ∈ ls, Usual l) (output : Bool)
    {legs : Legs} (hl : Grown legs) :
    FileRun output ls (parseLines output ls legs).res (parseLines output ls legs).out := by
  induction ls generalizing legs with
  | nil => exact .done
  | cons l ls ih =>
    have hp := lineRun_parse (ha l (by simp)) (hu l (by simp)) output hl
    have ih := ih (fun x hx => ha x (by simp [hx])) (fun x hx => hu x (by simp [hx]))
      (legs := (parse l output legs).legs) (parse_legs l output hl).2.2
    unfold parseLines
    simp only
    cases hq : (parse l output legs).res with
    | error e => rw [hq] at hp; exact .stop hp
    | ok b => rw [hq] at hp; exact .line hp ih

theorem fileRun_unique {ls : List Str} {output : Bool} {r r' : Except Exc Unit} {o o' : List Event}
    (h : FileRun output ls r o) (h' : FileRun output ls r' o') : r = r' ∧ o = o' := by
  induction h generalizing r' o' with
  | done => cases h'; exact ⟨rfl, rfl⟩
  | line h t ih =>
    cases h' with
    | line g u =>
      obtain ⟨_, rfl⟩ := lineRun_unique h g
      obtain ⟨rfl, rfl⟩ := ih u
      exact ⟨rfl, rfl⟩
    | stop g => cases (lineRun_unique h g).1
  | stop h =>
    cases h' with
    | line g u => cases (lineRun_unique h g).1
    | stop g =>
      obtain ⟨e, rfl⟩ := lineRun_unique h g
      cases e
      exact ⟨rfl, rfl⟩

/-- C79: and so does `read_file` with a file of such lines. -/
theorem C79_read_file {s : Str} {ls : List Str} (hs : Lines s ls) (ha : ∀ l ∈ ls, Ascii l) (hu : ∀ l ∈ ls, Usual l)
    (output : Bool) {legs : Legs} (hl : Grown legs) (res : Except Exc Unit) (out : List Event) :
    ((readFile (.text s) output legs).res = res ∧ (readFile (.text s) output legs).out = out) ↔
      FileRun output ls res out := by
  have hp := fileRun_lines ha hu output hl
  rw [← readFile_lines hs] at hp
  exact ⟨fun ⟨h1, h2⟩ => h1 ▸ h2 ▸ hp, fun h => fileRun_unique hp h⟩

theorem folderRun_files {fs : List FileObj}
    (hf : ∀ s, .text s ∈ fs → ∀ ls, Lines s ls → ∀ l ∈ ls, Ascii l ∧ Usual l) {legs : Legs} (hl : Grown legs) :
    FolderRun fs (readFiles fs legs).res (readFiles fs legs).out := by
  induction fs generalizing legs with
  | nil => exact .done
  | cons f fs ih =>
    unfold readFiles
    simp only
    cases f with
    | unopenable => exact .unopenable
    | undecodable => exact .undecodable
    | text s =>
      obtain ⟨ls, hs⟩ := lines_exist s
      have h := hf s (by simp) ls hs
      have hp := fileRun_lines (fun l hl => (h l hl).1) (fun l hl => (h l hl).2) true hl
      rw [← readFile_lines hs] at hp
      have ih := ih (fun s' hs' => hf s' (by simp [hs'])) (legs := (readFile (.text s) true legs).legs)
        (readFile_legs (.text s) true hl).2.2
      cases hq : (readFile (.text s) true legs).res with
      | error e => rw [hq] at hp; exact .stop hs hp
      | ok b => rw [hq] at hp; exact .file hs hp ih

theorem folderRun_unique {fs : List FileObj} {r r' : Except Exc Unit} {o o' : List Event}
    (h : FolderRun fs r o) (h' : FolderRun fs r' o') : r = r' ∧ o = o' := by
  induction h generalizing r' o' with
  | done => cases h'; exact ⟨rfl, rfl⟩
  | file hs h t ih =>
    cases h' with
    | file gs g u =>
      cases lines_unique hs gs
      obtain ⟨_, rfl⟩ := fileRun_unique h g
      obtain ⟨rfl, rfl⟩ := ih u
      exact ⟨rfl, rfl⟩
    | stop gs g => cases lines_unique hs gs; cases (fileRun_unique h g).1
  | stop hs h =>
    cases h' with
    | file gs g u => cases lines_unique hs gs; cases (fileRun_unique h g).1
    | stop gs g =>
      cases lines_unique hs gs
      obtain ⟨e, rfl⟩ := fileRun_unique h g
      cases e
      exact ⟨rfl, rfl⟩
  | unopenable => cases h'; exact ⟨rfl, rfl⟩
  | undecodable => cases h'; exact ⟨rfl, rfl⟩

/-- C79: and `read_folder` with a folder whose text files have such lines. -/
theorem C79_read_folder {fs : List FileObj}
    (hf : ∀ s, .text s ∈ fs → ∀ ls, Lines s ls → ∀ l ∈ ls, Ascii l ∧ Usual l) {legs : Legs} (hl : Grown legs)
    (res : Except Exc Unit) (out : List Event) :
    ((readFolder (some fs) legs).res = res ∧ (readFolder (some fs) legs).out = out) ↔ FolderRun fs res out := by
  have hp := folderRun_files hf hl
  exact ⟨fun ⟨h1, h2⟩ => h1 ▸ h2 ▸ hp, fun h => folderRun_unique hp h⟩

/-! ## C80 search -/

theorem searchRun_lines (filters : Filters) (n : Nat) (ls : List Str) :
    SearchRun filters n ls (searchLines filters ls n).1 (searchLines filters ls n).2 := by
  induction ls generalizing n with
  | nil => exact .done n
  | cons l ls ih =>
    obtain ⟨f, hf⟩ := fate_exists [] l
    have hf' : FateOf Record.new.continuation l f := hf
    obtain ⟨h1, h2, h3⟩ := fate_read hf'
    cases hq : f.returns with
    | error e =>
      cases hf with
      | refused h hh hk =>
        have : searchLines filters (l :: ls) n = (.error .valueError, []) := by
          simp only [searchLines, h1, h2, Fate.returns, Fate.prints]
        rw [this]
        exact .stop (.refused h hh hk)
      | _ => cases hq
    | ok b =>
      cases b with
      | false =>
        have : searchLines filters (l :: ls) n =
            ((searchLines filters ls n).1, f.prints ++ (searchLines filters ls n).2) := by
          simp only [searchLines, h1, h2, hq]
        rw [this]
        exact .skip hf hq (ih n)
      | true =>
        obtain ⟨t, k, fs, rfl, hline⟩ := fate_of_true hf hq
        have hraw : (Record.new.read l).obj.raw = t := congrArg (·.1) h3
        by_cases hm : Matches filters t
        · have : searchLines filters (l :: ls) n =
              ((searchLines filters ls (n + 1)).1, .line t :: (searchLines filters ls (n + 1)).2) := by
            simp [searchLines, h1, h2, hq, hraw, keep_iff.2 hm, Fate.prints]
          rw [this]
          exact .found hf hm (ih (n + 1))
        · have hk : filters.keep t = false := by
            cases hk : filters.keep t with
            | false => rfl
            | true => exact absurd (keep_iff.1 hk) hm
          have : searchLines filters (l :: ls) n = searchLines filters ls n := by
            simp [searchLines, h1, h2, hq, hraw, hk, Fate.prints]
          rw [this]
          exact .other hf hm (ih n)

theorem searchRun_unique {filters : Filters} {n : Nat} {ls : List Str} {r r' : Except Exc Unit} {o o' : List Event}
    (h : SearchRun filters n ls r o) (h' : SearchRun filters n ls r' o') : r = r' ∧ o = o' := by
  induction h generalizing r' o' with
  | done n => cases h'; exact ⟨rfl, rfl⟩
  | found h hm t ih =>
    cases h' with
    | found g gm u => cases fate_unique h g; obtain ⟨rfl, rfl⟩ := ih u; exact ⟨rfl, rfl⟩
    | other g gm u => cases fate_unique h g; exact absurd hm gm
    | skip g gf u => cases fate_unique h g; cases gf
    | stop g => cases fate_unique h g
  | other h hm t ih =>
    cases h' with
    | found g gm u => cases fate_unique h g; exact absurd gm hm
    | other g gm u => cases fate_unique h g; exact ih u
    | skip g gf u => cases fate_unique h g; cases gf
    | stop g => cases fate_unique h g
  | skip h hf t ih =>
    cases h' with
    | found g gm u => cases fate_unique h g; cases hf
    | other g gm u => cases fate_unique h g; cases hf
    | skip g gf u => cases fate_unique h g; obtain ⟨rfl, rfl⟩ := ih u; exact ⟨rfl, rfl⟩
    | stop g => cases fate_unique h g; cases hf
  | stop h =>
    cases h' with
    | found g gm u => cases fate_unique h g
    | other g gm u => cases fate_unique h g
    | skip g gf u => cases fate_unique h g; cases gf
    | stop g => exact ⟨rfl, rfl⟩

/-- C80: `search` does exactly what the specification says, with every file. -/
theorem C80_search {s : Str} {ls : List Str} (hs : Lines s ls) (filters : Filters) (res : Except Exc Unit)
    (out : List Event) : search (.text s) filters = (res, out) ↔ SearchRun filters 0 ls res out := by
  have hp := searchRun_lines filters 0 ls
  rw [← search_lines hs] at hp
  refine ⟨fun h => ?_, fun h => ?_⟩
  · rw [h] at hp; exact hp
  · obtain ⟨h1, h2⟩ := searchRun_unique hp h
    rw [← h1, ← h2]

/-! ## C81 json -/

/-- C81: what the JSON text of a line that was read says: the names of its fields, in order of first occurrence, each
    with the columns of the last field of that name. -/
theorem C81_json {r : Record} {line t k : Str} {fs : List StdField} (h : IsLine r.continuation line t k fs)
    (hl : PlainText line) (output : Bool) :
    ∃ d, jsonObject ((r.read line).obj.json output true).1 = some d ∧
      d.map Prod.fst = (fs.map (·.name)).eraseDups ∧
      ∀ n v, (n, v) ∈ d ↔ ((fs.filter (fun f => f.name == n)).getLast?).map (fun f => pick line f.shown.1) = some v := by
  have hacc := (C75_accepted_iff r line).2 ⟨_, _, _, h⟩
  obtain ⟨d, h1, h2, _, h4⟩ := C37_round_trip (r.read line).obj output (C37_accepted r line hl hacc)
  rw [(C75_read h).2.2.2.1] at h2 h4
  refine ⟨d, h1, ?_, ?_⟩
  · rw [h2, List.map_map]; rfl
  · intro n v
    rw [h4, List.filter_map, List.getLast?_map, Option.map_map]
    rfl

/-- C81: the multi-line text says the same, sorted by name. -/
theorem C81_pretty {r : Record} {line t k : Str} {fs : List StdField} (h : IsLine r.continuation line t k fs)
    (hl : PlainText line) (output : Bool) :
    ∃ d, jsonObject ((r.read line).obj.json output false).1 = some d ∧
      (d.map Prod.fst).Pairwise (· < ·) ∧
      ∀ n v, (n, v) ∈ d ↔ ((fs.filter (fun f => f.name == n)).getLast?).map (fun f => pick line f.shown.1) = some v := by
  have hacc := (C75_accepted_iff r line).2 ⟨_, _, _, h⟩
  obtain ⟨d, h1, _, h4⟩ := C81_json h hl output
  obtain ⟨d₁, d₂, g1, g2, g3, _, g5⟩ := C38_same_object (r.read line).obj output output (C37_accepted r line hl hacc)
  rw [h1] at g1
  cases g1
  exact ⟨d₂, g2, g5, fun n v => by rw [g3.mem_iff, h4]⟩

/-- C81: and if no name is repeated, the text lists the fields. -/
theorem C81_all_fields {r : Record} {line t k : Str} {fs : List StdField} (h : IsLine r.continuation line t k fs)
    (hl : PlainText line) (output : Bool) (hn : (fs.map (·.name)).Nodup) :
    jsonObject ((r.read line).obj.json output true).1 =
      some (fs.map fun f => (f.name, pick line f.shown.1)) := by
  have hacc := (C75_accepted_iff r line).2 ⟨_, _, _, h⟩
  have hf := (C75_read h).2.2.2.1
  have hn' : ((r.read line).obj.fields.map (·.name)).Nodup := by
    rw [hf, List.map_map]; exact hn
  obtain ⟨d, h1, rfl⟩ := C39_lossless_partial r line hl output hacc ((C39_exceptions_exact r line hacc).1 hn')
  rw [h1, hf, List.map_map]
  rfl

/-! ## C82 histories -/

omit [PyUnicode] in
theorem last_exists {α : Type} (P : List Str → Str → α → Prop) (h : List Str) : ∃ x, Last P h x := by
  have : ∀ (g : List Str), ∃ x, Last P g.reverse x := by
    intro g
    induction g with
    | nil => exact ⟨_, .none⟩
    | cons l g ih =>
      rw [List.reverse_cons]
      by_cases hx : ∃ x, P g.reverse l x
      · obtain ⟨x, hx⟩ := hx; exact ⟨_, .this hx⟩
      · obtain ⟨x, ih⟩ := ih
        exact ⟨x, .earlier (fun y hy => hx ⟨y, hy⟩) ih⟩
  have := this h.reverse
  rwa [List.reverse_reverse] at this

theorem hasRead_snoc (h : List Str) (l : Str) : hasRead (h ++ [l]) = ((hasRead h).read l).obj := by
  simp [hasRead]

/-- what `read` does to raw text, section, continuation number and definition -/
theorem read_step (r : Record) (line : Str) :
    (∀ t, TextOf [] line t → (r.read line).obj.raw = t) ∧
    ((∀ t, ¬ TextOf [] line t) → (r.read line).obj = r) ∧
    (∀ k, SectionOf [] line k → (r.read line).obj.ident = k) ∧
    ((∀ k, ¬ SectionOf [] line k) → (r.read line).obj.ident = r.ident ∧ (r.read line).obj.definition = r.definition ∧
      (r.read line).obj.fields = r.fields) ∧
    (∀ c, NumberOf [] line c → (r.read line).obj.continuation = c ∧ (r.read line).obj.definition.isSome = true) ∧
    ((∀ c, ¬ NumberOf [] line c) → (r.read line).obj.continuation = r.continuation) ∧
    (r.definition.isSome = true → (r.read line).obj.definition.isSome = true) := by
  have hobj : ∀ k d, ∃ fs, (r.readAs line k d).obj = { r.enter line k d with fields := fs } := by
    intro k d
    unfold Record.readAs Record.finish
    simp only
    repeat' split
    all_goals exact ⟨_, rfl⟩
  rcases read_cases r line with ⟨hn, h⟩ | ⟨hs, hk, h⟩ | ⟨hs, k, d, hk, hd, hf, h⟩
  · rw [h]
    have ht : ∀ t, ¬ TextOf [] line t := fun t ht => hn ⟨t, ht⟩
    have hk : ∀ k, ¬ SectionOf [] line k := fun k hk => hn hk.1
    exact ⟨fun t h => absurd h (ht t), fun _ => rfl, fun k h => absurd h (hk k), fun _ => ⟨rfl, rfl, rfl⟩,
      fun c ⟨t, _, _, h1, h2, _⟩ => absurd ⟨h1, h2⟩ (ht t), fun _ => rfl, fun h => h⟩
  · rw [h]
    have hno : ∀ k, ¬ Resolves line k := fun k hr => by rw [resolve_iff.2 hr] at hk; cases hk
    exact ⟨fun t ht => isRecord_strip ht.1 ht.2, fun ht => absurd ⟨padded_strip line, hs⟩ (ht _),
      fun k hk => absurd hk.2 (hno k), fun _ => ⟨rfl, rfl, rfl⟩,
      fun c ⟨_, k, _, _, _, h1, _⟩ => absurd h1 (hno k), fun _ => rfl, fun h => h⟩
  · rw [h]
    obtain ⟨fs, ho⟩ := hobj k d
    rw [ho]
    have hr := resolve_iff.1 hk
    refine ⟨fun t ht => isRecord_strip ht.1 ht.2, fun ht => absurd ⟨padded_strip line, hs⟩ (ht _),
      fun k' hk' => resolves_functional hr hk'.2, fun hno => absurd ⟨⟨_, padded_strip line, hs⟩, hr⟩ (hno k),
      ?_, ?_, fun _ => rfl⟩
    · rintro c ⟨t, k', i, h1, h2, h3, h4, rfl⟩
      cases resolves_functional hr h3
      refine ⟨?_, rfl⟩
      have hc : d.contIdx = some i := by rw [hf.cont, h4]
      show (r.enter line k d).continuation = _
      rw [enter_cont hc, isRecord_strip h1 h2]
    · intro hno
      show (r.enter line k d).continuation = _
      cases hc : contColumn k with
      | some i => exact absurd ⟨_, k, i, padded_strip line, hs, hr, hc, rfl⟩ (hno _)
      | none => simp only [Record.enter, hf.cont, hc]

theorem last_number {h : List Str} {x : Option Str} (hx : Last NumberOf h x) :
    (hasRead h).continuation = x.getD [] ∧ (x.isSome = true → (hasRead h).definition.isSome = true) := by
  induction hx with
  | none => exact ⟨rfl, fun h => by cases h⟩
  | this hx =>
    rw [hasRead_snoc]
    obtain ⟨_, _, _, _, h5, _, _⟩ := read_step (hasRead _) _
    exact ⟨(h5 _ hx).1, fun _ => (h5 _ hx).2⟩
  | earlier hn hx ih =>
    rw [hasRead_snoc]
    obtain ⟨_, _, _, _, _, h6, h7⟩ := read_step (hasRead _) _
    exact ⟨(h6 hn).trans ih.1, fun h => h7 (ih.2 h)⟩

/-- C82: after any history the raw text is that of the last record. -/
theorem C82_raw {h : List Str} {x : Option Str} (hx : Last TextOf h x) : (hasRead h).raw = x.getD [] := by
  induction hx with
  | none => rfl
  | this hx => rw [hasRead_snoc]; exact (read_step (hasRead _) _).1 _ hx
  | earlier hn hx ih => rw [hasRead_snoc, (read_step (hasRead _) _).2.1 hn]; exact ih

/-- C82: the section is that of the last record of a supported section. -/
theorem C82_section {h : List Str} {x : Option Str} (hx : Last SectionOf h x) : (hasRead h).ident = x.getD [] := by
  induction hx with
  | none => rfl
  | this hx => rw [hasRead_snoc]; exact (read_step (hasRead _) _).2.2.1 _ hx
  | earlier hn hx ih => rw [hasRead_snoc, ((read_step (hasRead _) _).2.2.2.1 hn).1]; exact ih

/-- C82: the continuation number, which `primary()` and `hasCont()` look at, is that of the last record that has one. -/
theorem C82_primary (h : List Str) :
    ((hasRead h).primary = true ↔ Last NumberOf h (some (py!"0")) ∨ Last NumberOf h (some (py!"1"))) ∧
    ((hasRead h).hasCont = true ↔ Last NumberOf h (some (py!"1"))) := by
  obtain ⟨x, hx⟩ := last_exists NumberOf h
  have key : ∀ c : Str, c ≠ [] → ((hasRead h).definition.isSome = true ∧ (hasRead h).continuation = c ↔
      Last NumberOf h (some c)) := by
    intro c hc
    refine ⟨fun ⟨_, h2⟩ => ?_, fun hl => ⟨(last_number hl).2 rfl, (last_number hl).1⟩⟩
    rw [(last_number hx).1] at h2
    cases x with
    | none => exact absurd h2.symm hc
    | some y => cases h2; exact hx
  have hp : (hasRead h).primary = true ↔ (hasRead h).definition.isSome = true ∧
      ((hasRead h).continuation = py!"0" ∨ (hasRead h).continuation = py!"1") := by
    unfold Record.primary
    cases (hasRead h).definition <;> simp
  refine ⟨?_, ?_⟩
  · rw [hp, and_or_left, key _ (by decide), key _ (by decide)]
  · rw [← key _ (by decide)]
    unfold Record.hasCont
    by_cases hq : (hasRead h).primary = true
    · rw [if_neg (by rw [hq]; decide), beq_iff_eq]
      exact ⟨fun h => ⟨(hp.1 hq).1, h⟩, fun h => h.2⟩
    · rw [if_pos (by simpa using hq)]
      exact ⟨fun h => absurd h (by simp), fun ⟨h1, h2⟩ => absurd (hp.2 ⟨h1, .inr h2⟩) hq⟩

/-- C82: the fields are those of the last record whose fields could be told. -/
theorem C82_fields {h : List Str} {x : Option (List Field)} (hx : Last FieldsOf h x) :
    (hasRead h).fields = x.getD [] := by
  induction hx with
  | none => rfl
  | this hx =>
    rw [hasRead_snoc]
    obtain ⟨before, t, k, hb, ⟨gs, hf, rfl⟩ | ⟨hf, rfl⟩⟩ := hx
    all_goals
      rw [← (last_number hb).1] at hf
      exact congrArg (·.2.2) (fate_read hf).2.2
  | @earlier h l x hn hx ih =>
    rw [hasRead_snoc, ← ih]
    obtain ⟨before, hb⟩ := last_exists NumberOf h
    obtain ⟨f, hf⟩ := fate_exists (hasRead h).continuation l
    have hl := (fate_read hf).2.2
    rw [(last_number hb).1] at hf
    have := congrArg (·.2.2) hl
    cases f with
    | record t k gs => exact absurd ⟨before, t, k, hb, .inl ⟨gs, hf, rfl⟩⟩ (hn _)
    | noFields t k => exact absurd ⟨before, t, k, hb, .inr ⟨hf, rfl⟩⟩ (hn _)
    | _ => exact this

omit [PyUnicode] in
/-- C82: of every history exactly one thing can be said about each of these. -/
theorem C82_last {α : Type} (P : List Str → Str → α → Prop) (hP : ∀ h l x y, P h l x → P h l y → x = y)
    (h : List Str) : ∃ x, Last P h x ∧ ∀ y, Last P h y → y = x := by
  obtain ⟨x, hx⟩ := last_exists P h
  refine ⟨x, hx, ?_⟩
  have snoc : ∀ {h : List Str} {l : Str} {y : Option α}, Last P (h ++ [l]) y →
      (∃ z, P h l z ∧ y = some z) ∨ ((∀ z, ¬ P h l z) ∧ Last P h y) := by
    intro h l y hy
    generalize hg : h ++ [l] = g at hy
    cases hy with
    | none => simp at hg
    | this hz =>
      obtain ⟨rfl, hc⟩ := List.append_inj' hg rfl
      cases hc
      exact .inl ⟨_, hz, rfl⟩
    | earlier hn hz =>
      obtain ⟨rfl, hc⟩ := List.append_inj' hg rfl
      cases hc
      exact .inr ⟨hn, hz⟩
  induction hx with
  | none =>
    intro y hy
    generalize hg : ([] : List Str) = g at hy
    cases hy with
    | none => rfl
    | this _ => simp at hg
    | earlier _ _ => simp at hg
  | this hx =>
    intro y hy
    rcases snoc hy with ⟨z, hz, rfl⟩ | ⟨hn, _⟩
    · rw [hP _ _ _ _ hx hz]
    · exact absurd hx (hn _)
  | earlier hn hx ih =>
    intro y hy
    rcases snoc hy with ⟨z, hz, rfl⟩ | ⟨_, hz⟩
    · exact absurd hz (hn _)
    · exact ih y hz

theorem textOf_functional (h : List Str) (l x y : Str) (hx : TextOf h l x) (hy : TextOf h l y) : x = y :=
  (isRecord_strip hx.1 hx.2).symm.trans (isRecord_strip hy.1 hy.2)

theorem sectionOf_functional (h : List Str) (l x y : Str) (hx : SectionOf h l x) (hy : SectionOf h l y) : x = y :=
  resolves_functional hx.2 hy.2

theorem numberOf_functional (h : List Str) (l x y : Str) (hx : NumberOf h l x) (hy : NumberOf h l y) : x = y := by
  obtain ⟨t, k, i, h1, h2, h3, h4, rfl⟩ := hx
  obtain ⟨t', k', i', g1, g2, g3, g4, rfl⟩ := hy
  cases textOf_functional h l t t' ⟨h1, h2⟩ ⟨g1, g2⟩
  cases resolves_functional h3 g3
  rw [h4] at g4
  cases g4
  rfl

theorem fieldsOf_functional (h : List Str) (l : Str) (x y : List Field) (hx : FieldsOf h l x)
    (hy : FieldsOf h l y) : x = y := by
  obtain ⟨b, t, k, hb, hx⟩ := hx
  obtain ⟨b', t', k', hb', hy⟩ := hy
  obtain ⟨z, _, hz⟩ := C82_last NumberOf numberOf_functional h
  rw [hz b hb] at hx
  rw [hz b' hb'] at hy
  rcases hx with ⟨gs, hx, rfl⟩ | ⟨hx, rfl⟩ <;> rcases hy with ⟨gs', hy, rfl⟩ | ⟨hy, rfl⟩
  · cases fate_unique hx hy; rfl
  · cases fate_unique hx hy
  · cases fate_unique hx hy
  · rfl

/-- C82: so each of these is told by the history alone. -/
theorem C82_told (h : List Str) :
    (∃ x, Last TextOf h x ∧ ∀ y, Last TextOf h y → y = x) ∧
    (∃ x, Last SectionOf h x ∧ ∀ y, Last SectionOf h y → y = x) ∧
    (∃ x, Last NumberOf h x ∧ ∀ y, Last NumberOf h y → y = x) ∧
    (∃ x, Last FieldsOf h x ∧ ∀ y, Last FieldsOf h y → y = x) :=
  ⟨C82_last _ textOf_functional h, C82_last _ sectionOf_functional h, C82_last _ numberOf_functional h,
   C82_last _ fieldsOf_functional h⟩

/-- C82 (the note in README.md): as long as no line of a supported section was read, `primary()` and `hasCont()` are
    false, and there are no fields. -/
theorem C82_not_initialised {h : List Str} (hn : ∀ l ∈ h, ∀ k, ¬ SectionOf [] l k) :
    (hasRead h).primary = false ∧ (hasRead h).hasCont = false ∧ (hasRead h).fields = [] ∧ (hasRead h).ident = [] := by
  have : ∀ g : List Str, (∀ l ∈ g, ∀ k, ¬ SectionOf [] l k) →
      (hasRead g.reverse).definition = none ∧ (hasRead g.reverse).fields = [] ∧ (hasRead g.reverse).ident = [] := by
    intro g hg
    induction g with
    | nil => exact ⟨rfl, rfl, rfl⟩
    | cons l g ih =>
      obtain ⟨i1, i2, i3⟩ := ih (fun x hx => hg x (by simp [hx]))
      rw [List.reverse_cons, hasRead_snoc]
      obtain ⟨h1, h2, h3⟩ := (read_step (hasRead g.reverse) l).2.2.2.1 (hg l (by simp))
      rw [h1, h2, h3]
      exact ⟨i1, i2, i3⟩
  obtain ⟨h1, h2, h3⟩ := this h.reverse (fun l hl => hn l (by simpa using hl))
  rw [List.reverse_reverse] at h1 h2 h3
  have hp : (hasRead h).primary = false := by unfold Record.primary; rw [h1]
  exact ⟨hp, by unfold Record.hasCont; rw [if_pos hp], h2, h3⟩

/-! ## The hypotheses are met -/

/-- a sufficient condition for `¬ Unusual` that can be computed -/
def plainNumber (fn : DecFn) (v : Str) : Bool :=
  match fn with
  | .f026 | .f027 => (number (strip v)).isSome
  | .f032 => (number (v.take 2)).isSome
  | .f039 => (number (v.drop 1)).isSome
  | .f269 => (number v).isSome
  | _ => true

theorem plainNumber_usual {fn : DecFn} {v : Str} (h : plainNumber fn v = true) : ¬ Unusual fn v := by
  intro hu
  cases fn <;> simp only [Unusual] at hu <;> simp only [plainNumber] at h
  case f027 =>
    obtain ⟨w, rfl | hw, _, hn⟩ := hu
    · rw [hn] at h; cases h
    · rw [hw] at h
      simp [number] at h
  all_goals
    rw [hu.2] at h
    cases h

end

section
attribute [local instance] Py.Tables.cpython311

theorem airport_usual : Usual Sample.airport := by
  intro t k fs h f hf
  obtain ⟨_, _, rfl⟩ := C75_unique h airport_isLine
  have : (fieldsOf (py!"PA") true (py!"1")).all
      (fun f => plainNumber f.shown.2 (pick Sample.airport f.shown.1)) = true := by decide +kernel
  exact plainNumber_usual (List.all_eq_true.1 this f hf)

/-- C77: all the fates occur -/
theorem airport_fate : FateOf [] Sample.airport
    (.record Sample.airport (py!"PA") (fieldsOf (py!"PA") true (py!"1"))) := .record airport_isLine

theorem blank_fate : FateOf [] (py!"  ") .notRecord := .notRecord (by
  rintro ⟨t, hp, ht⟩
  have h1 := isRecord_strip hp ht
  have h2 : strip (py!"  ") = [] := by decide +kernel
  rw [h2] at h1
  subst h1
  exact absurd ht.length (by decide))

theorem noSection_fate : FateOf [] Sample.noSection (.noSection Sample.noSection) :=
  .noSection (padded_self _) (isRecord_of (by decide +kernel) (by decide +kernel) (by decide +kernel))
    (fun k hk => by
      have h := resolve_iff.2 hk
      rw [show resolve Sample.noSection = none by decide +kernel] at h
      cases h)

theorem badCont_fate : FateOf [] Sample.airportBadCont
    (.badNumber Sample.airportBadCont (py!"PA") (py!"Airport") (py!" ")) :=
  .badNumber (i := 21) (padded_self _) (isRecord_of (by decide +kernel) (by decide +kernel) (by decide +kernel))
    (.bySplit (by decide +kernel) (by decide +kernel)) (by decide +kernel) (by decide +kernel) (by decide +kernel)

theorem airwayContZ_fate : FateOf [] Sample.airwayContZ (.refused Sample.airwayContZ (py!"ER")) :=
  .refused ⟨padded_self _, isRecord_of (by decide +kernel) (by decide +kernel) (by decide +kernel),
    .byPair (by decide +kernel), fun i hi => by
      rw [show contColumn (py!"ER") = some 38 by decide +kernel] at hi
      cases hi; decide +kernel⟩ (by decide +kernel) (by decide +kernel)

theorem airportContZ_fate : FateOf [] Sample.airportContZ (.noFields Sample.airportContZ (py!"PA")) :=
  .noFields ⟨padded_self _, isRecord_of (by decide +kernel) (by decide +kernel) (by decide +kernel),
    .bySplit (by decide +kernel) (by decide +kernel), fun i hi => by
      rw [show contColumn (py!"PA") = some 21 by decide +kernel] at hi
      cases hi; decide +kernel⟩ (by decide +kernel) (by decide +kernel)

/-- C78 (hypotheses are met, and values are shown, complained about and refused) -/
example : verdict (py!"PA") [] .f073 (py!"10000") = .shown (.text (py!"10000 ft")) [] ∧
    verdict (py!"PD") [] .f065 (py!"1X00") =
      .shown (.text (py!"Invalid Value: \"1X00\"")) [.legTime (py!"1X00") (.notInt (py!"X"))] ∧
    verdict (py!"PA") [] .f072 (py!"25O") = .raised .valueError [] ∧
    verdict (py!"DB") [] .f034 (py!"1O215") = .raised .systemExit
      [.line (py!"Unsupported VOR/NDB Frequency: \"1O215\""), .line (py!"from record type \"DB\": \"\"")] := by
  decide +kernel

example : Ascii (py!"25O") ∧ fullWidth .f072 (py!"25O").length = true ∧ ¬ Unusual .f072 (py!"25O") :=
  ⟨by unfold Ascii; decide +kernel, by decide +kernel, plainNumber_usual (by decide +kernel)⟩

/-- C79: `parse` of the line in README.md, from the specification -/
example : ∃ rows, LineRun true Sample.airport (.ok true) [.table rows] ∧ rows.length = 28 := by
  have h2 : (tell (py!"PA") Sample.airport Sample.airport (fieldsOf (py!"PA") true (py!"1"))).2 = [] := by
    decide +kernel
  have h1 : (match (tell (py!"PA") Sample.airport Sample.airport (fieldsOf (py!"PA") true (py!"1"))).1 with
    | .ok xs => xs.length | .error _ => 0) = 28 := by decide +kernel
  cases ht : tell (py!"PA") Sample.airport Sample.airport (fieldsOf (py!"PA") true (py!"1")) with
  | mk res out =>
    rw [ht] at h1 h2
    cases h2
    cases res with
    | error e => cases h1
    | ok xs =>
      obtain ⟨rows, hr⟩ := rowsOf_exists xs
      have := LineRun.shown (output := true) airport_fate ht hr
      refine ⟨rows, this, ?_⟩
      have := congrArg List.length hr
      rw [List.length_map, List.length_map] at this
      rw [this]; exact h1

/-- the table in README.md, lines 40-70, but for the padding of the cells -/
def readmeTable : List (Str × Str × Str) :=
  [(py!"Record Type", py!"'S'", py!"Standard"),
   (py!"Customer / Area Code", py!"'USA'", py!"United States of America"),
   (py!"Section Code", py!"'PA'", py!"Airport Reference Point"),
   (py!"Airport ICAO Identifier", py!"'KSEA'", py!"KSEA"),
   (py!"ICAO Code", py!"'K1'", py!"K1"),
   (py!"ATA/IATA Designator", py!"'SEA'", py!"SEA"),
   (py!"Continuation Record No", py!"'1'", py!"Primary Record (with Cont.)"),
   (py!"Speed Limit Altitude", py!"'10000'", py!"10000 ft"),
   (py!"Longest Runway", py!"'119'", py!"11900 ft"),
   (py!"IFR Capability", py!"'Y'", py!"Official"),
   (py!"Longest Runway Surface Code", py!"' '", py!""),
   (py!"Airport Reference Pt. Latitude", py!"'N47265700'", py!"N47265700"),
   (py!"Airport Reference Pt. Longitude", py!"'W122182910'", py!"W122182910"),
   (py!"Magnetic Variation", py!"'E0199'", py!"199 E"),
   (py!"Airport Elevation", py!"'00429'", py!"00429"),
   (py!"Speed Limit", py!"'250'", py!"250 knots (IAS)"),
   (py!"Recommended Navaid", py!"'SEA '", py!"SEA"),
   (py!"ICAO Code (2)", py!"'K1'", py!"K1"),
   (py!"Transition Altitude", py!"'18000'", py!"18000 ft"),
   (py!"Transition Level", py!"'18000'", py!"18000 ft"),
   (py!"Public Military Indicator", py!"'C'", py!"Public / Civil"),
   (py!"Time Zone", py!"'U00'", py!"GMT +8:00"),
   (py!"Daylight Indicator", py!"'Y'", py!"Yes"),
   (py!"Magnetic/True Indicator", py!"' '", py!""),
   (py!"Datum Code", py!"'NAS'", py!"NAS"),
   (py!"Airport Name", py!"'SEATTLE-TACOMA INTL           '", py!"SEATTLE-TACOMA INTL"),
   (py!"File Record No", py!"'04569'", py!"04569"),
   (py!"Cycle Date", py!"'8808'", py!"1988, Release 08")]

/-- C79: what README.md says `parse` prints for its example -/
example : (match (parse Sample.airport true legTypeDesc).out with
    | [.table rows] => rows.map fun r => (r.field, r.value, match r.decoded with | .str s => strip s | _ => [])
    | _ => []) = readmeTable := by decide +kernel

/-- C79 (hypotheses are met): a file and a folder -/
example : ∀ l ∈ [Sample.airport, py!"  "], Ascii l ∧ Usual l := by
  intro l hl
  simp only [List.mem_cons, List.not_mem_nil, or_false] at hl
  rcases hl with rfl | rfl
  · exact ⟨by unfold Ascii; decide +kernel, airport_usual⟩
  · refine ⟨by unfold Ascii; decide +kernel, fun t k fs h => ?_⟩
    cases fate_unique blank_fate (.record h)

/-- C80: a search that prints a record, skips others and ends with an exception -/
example : SearchRun (.str (py!"TACOMA")) 0
    [Sample.airport, py!"  ", Sample.noSection, Sample.airportBadCont, Sample.airwayContZ] (.error .valueError)
    [.line Sample.airport,
     .line (py!"Unsupported Airport Continuation Record Number: \" \""),
     .line (py!"Valid Continuation Record Numbers are 0, 1, 2 (through 9) A, B, C (through Z)"),
     .line (py!"Record: " ++ Sample.airportBadCont)] := by
  have hm : Matches (.str (py!"TACOMA")) Sample.airport := contains_iff.1 (by decide +kernel)
  exact .found airport_fate hm (.skip blank_fate rfl (.skip noSection_fate rfl (.skip badCont_fate rfl
    (.stop airwayContZ_fate))))

/-- C81 (hypotheses are met) -/
example : PlainText Sample.airport ∧ ((fieldsOf (py!"PA") true (py!"1")).map (·.name)).Nodup :=
  ⟨by decide +kernel, by decide +kernel⟩

/-- C82: after reading an airport record, a record of no supported section and something else, the text is that of
    the second, the section and the number are those of the first -/
example : Last TextOf [Sample.airport, Sample.noSection, py!"  "] (some Sample.noSection) ∧
    Last SectionOf [Sample.airport, Sample.noSection, py!"  "] (some (py!"PA")) ∧
    Last NumberOf [Sample.airport, Sample.noSection, py!"  "] (some (py!"1")) := by
  have hb : ∀ (h : List Str) t, ¬ TextOf h (py!"  ") t := fun h t ht => by
    cases blank_fate with | notRecord hn => exact hn ⟨t, ht⟩
  have hk : ∀ (h : List Str) k, ¬ SectionOf h Sample.noSection k := fun h k hk => by
    cases noSection_fate with | noSection _ _ hn => exact hn k hk.2
  refine ⟨.earlier (h := [Sample.airport, Sample.noSection]) (hb _)
      (.this (h := [Sample.airport]) ⟨padded_self _, isRecord_of (by decide +kernel) (by decide +kernel) (by decide +kernel)⟩),
    .earlier (h := [Sample.airport, Sample.noSection]) (fun k hk => by obtain ⟨t, ht⟩ := hk.1; exact hb [] t ht)
      (.earlier (h := [Sample.airport]) (hk _) (.this (h := []) ⟨⟨_, airport_isLine.padded, airport_isLine.shape⟩,
        airport_isLine.section_⟩)),
    .earlier (h := [Sample.airport, Sample.noSection]) (fun c ⟨t, _, _, h1, h2, _⟩ => hb [] t ⟨h1, h2⟩)
      (.earlier (h := [Sample.airport]) (fun c ⟨t, k, _, h1, h2, h3, _⟩ => hk [] k ⟨⟨t, h1, h2⟩, h3⟩)
        (.this (h := []) ⟨_, _, 21, airport_isLine.padded, airport_isLine.shape, airport_isLine.section_,
          by decide +kernel, by decide +kernel⟩))⟩

/-- C82 (hypotheses are met): a history without a line of a supported section -/
example : ∀ l ∈ [Sample.noSection, py!"  "], ∀ k, ¬ SectionOf [] l k := by
  intro l hl k hk
  simp only [List.mem_cons, List.not_mem_nil, or_false] at hl
  rcases hl with rfl | rfl
  · cases noSection_fate with | noSection _ _ hn => exact hn k hk.2
  · cases blank_fate with | notRecord hn => exact hn hk.1

end
end Arinc
