import Verif.Lemmas.Save
import Verif.Props.Stdout
import Verif.Props.Json
import Verif.Props.Bytes
import Verif.Props.Samples
import Verif.Spec.Encoding
import Verif.Py.Cpython311
/-!
# C116: writing a record to a file, and reading the file back
-/
namespace Arinc
open Py Spec Spec.Std

/-! ## Any text -/

/-- C116: A text can be written to a file iff it contains no surrogates. What is on the disk then is its UTF-8 form, with
    the line ends of the system. -/
theorem C116_save (windows : Bool) (s : Str) :
    ((∃ b, save windows s = some b) ↔ NoSurrogates s) ∧
    ∀ b, save false s = some b → Utf8 s b :=
  ⟨save_iff windows s, fun _ h => encode_utf8 h⟩

/-- C116: It is read back unchanged, on the same system or another, iff it contains no CR. -/
theorem C116_load {windows : Bool} {s : Str} {b : List ℕ} (h : save windows s = some b) :
    load b = some s ↔ 13 ∉ s := load_save h

/-! ## JSON -/

theorem json_ascii (r : Record) (output single_line : Bool) :
    ∀ c ∈ (r.json output single_line).1, c < 128 ∧ c ≠ 13 := by
  intro c hc
  cases single_line
  · have := (C40_printable r output).2 c hc; omega
  · have := (C40_printable r output).1 c hc; omega

theorem save_plain {windows : Bool} {s : Str} (h : ∀ c ∈ s, c < 128) : save windows s = some (writeNewlines windows s) :=
  encode_ascii fun c hc => by
    rcases newlines_mem hc with hc | rfl
    · exact h c hc
    · omega

theorem load_plain {windows : Bool} {s : Str} (h : ∀ c ∈ s, c < 128 ∧ c ≠ 13) :
    load (writeNewlines windows s) = some s ∧
    ∀ t, ExtendsAscii t → loadIn t (writeNewlines windows s) = some s := by
  have h13 : 13 ∉ s := fun hc => (h 13 hc).2 rfl
  have ha : ∀ c ∈ writeNewlines windows s, c < 128 := fun c hc => by
    rcases newlines_mem hc with hc | rfl
    · exact (h c hc).1
    · omega
  refine ⟨(load_save (save_plain fun c hc => (h c hc).1)).2 h13, fun t ht => ?_⟩
  unfold loadIn
  rw [charmap_ascii ht.ascii ha, Option.map_some, universal_written h13]

/-- C116: The JSON text of any record, in either style, can be written to a file, and is read back unchanged where the
    default encoding is UTF-8 or any code page that extends ASCII, whichever system it was written on. -/
theorem C116_json (r : Record) (output single_line windows : Bool) :
    ∃ b, save windows (r.json output single_line).1 = some b ∧
      load b = some (r.json output single_line).1 ∧
      ∀ t, ExtendsAscii t → loadIn t b = some (r.json output single_line).1 :=
  ⟨_, save_plain fun c hc => (json_ascii r output single_line c hc).1, load_plain (json_ascii r output single_line)⟩

/-- C116: One record a line: if the JSON texts of any records are written to a file, each followed by LF, then the lines of
    the file that is read back are these texts, in the same order, and as many. -/
theorem C116_json_lines (rs : List Record) (output windows : Bool) :
    ∃ b s, save windows (terminated [10] (rs.map fun r => (r.json output true).1)) = some b ∧ load b = some s ∧
      Lines s (rs.map fun r => (r.json output true).1) ∧
      ∀ t, ExtendsAscii t → loadIn t b = some s := by
  have hs : ∀ c ∈ terminated [10] (rs.map fun r => (r.json output true).1), c < 128 ∧ c ≠ 13 := by
    intro c hc
    simp only [terminated, List.mem_flatMap, List.mem_append, List.mem_singleton, List.mem_map] at hc
    obtain ⟨_, ⟨r, _, rfl⟩, hc | rfl⟩ := hc
    · exact json_ascii r output true c hc
    · omega
  obtain ⟨h1, h2⟩ := load_plain (windows := windows) hs
  refine ⟨_, _, save_plain fun c hc => (hs c hc).1, h1, ?_, h2⟩
  have := lines_terminated (eol := [10]) (.inl rfl) (ls := rs.map fun r => (r.json output true).1) (last := [])
    (fun l hl c hc => by
      obtain ⟨r, _, rfl⟩ := List.mem_map.1 hl
      have := (C40_printable r output).1 c hc
      omega) (fun c hc => by cases hc)
  simpa using this

/-- C116: and each line of it is a JSON object that has exactly the names of the record's fields, with their values (of
    several fields of a name the last, C39), if no text contains a surrogate pair. -/
theorem C116_json_records (rs : List Record) (output windows : Bool)
    (h : ∀ r ∈ rs, ∀ f ∈ r.fields, PlainText f.name ∧ PlainText f.value) :
    ∃ b s ls, save windows (terminated [10] (rs.map fun r => (r.json output true).1)) = some b ∧ load b = some s ∧
      Lines s ls ∧
      List.Forall₂ (fun r l => ∃ d, jsonObject l = some d ∧
        d.map Prod.fst = (r.fields.map (·.name)).eraseDups ∧
        ∀ n v, (n, v) ∈ d ↔ ((r.fields.filter (fun f => f.name == n)).getLast?).map (·.value) = some v) rs ls := by
  obtain ⟨b, s, h1, h2, h3, _⟩ := C116_json_lines rs output windows
  refine ⟨b, s, _, h1, h2, h3, ?_⟩
  rw [List.forall₂_map_right_iff]
  clear h1 h2 h3
  induction rs with
  | nil => exact .nil
  | cons r rs ih =>
    obtain ⟨d, e1, e2, _, e4⟩ := C37_round_trip r output (h r (by simp))
    exact .cons ⟨d, e1, e2, e4⟩ (ih fun r hr => h r (by simp [hr]))

/-! ## Records as they are -/

theorem newlines_terminated (windows : Bool) {ls : List Str} (h : ∀ l ∈ ls, NoEOL l) :
    writeNewlines windows (terminated [10] ls) = terminated (if windows then [13, 10] else [10]) ls := by
  unfold writeNewlines
  cases windows
  · rfl
  · simp only [if_true, terminated, List.flatMap_assoc] at *
    refine List.flatMap_congr fun l hl => ?_
    rw [List.flatMap_append]
    congr 1
    have := h l hl
    clear hl h
    induction l with
    | nil => rfl
    | cons c l ih =>
      rw [List.flatMap_cons, if_neg (this c (by simp)).1, ih fun c hc => this c (by simp [hc])]
      rfl

section
variable [PyUnicode]

/-- C116: Lines written to a new file, each followed by LF (a selection, say, or the texts of records), are read and searched
    there as in any other file with these lines. -/
theorem C116_lines {ls : List Str} (hn : ∀ l ∈ ls, NoEOL l) (hs : ∀ l ∈ ls, NoSurrogates l) (windows : Bool) :
    ∃ b, save windows (terminated [10] ls) = some b ∧ ∀ s, Lines s ls →
      (∀ (output : Bool) (legs : Legs), readFileAt (.bytes b) output legs = readFile (.text s) output legs) ∧
      ∀ filters, searchAt (.bytes b) filters = search (.text s) filters := by
  obtain ⟨b, hb⟩ := (save_iff windows (terminated [10] ls)).2 fun c hc => by
    simp only [terminated, List.mem_flatMap, List.mem_append, List.mem_singleton] at hc
    obtain ⟨l, hl, hc | rfl⟩ := hc
    · exact hs l hl c hc
    · omega
  refine ⟨b, hb, fun s hl => ?_⟩
  have hf := file_text (encode_utf8 hb)
  rw [newlines_terminated windows hn] at hf
  have ht := lines_terminated (eol := if windows then [13, 10] else [10]) (by cases windows <;> simp) hn (last := [])
    (fun c hc => by cases hc)
  simp only [List.append_nil, if_true] at ht
  unfold readFileAt searchAt
  rw [hf]
  exact ⟨fun output legs => by rw [readFile_lines ht, readFile_lines hl],
    fun filters => by rw [search_lines ht, search_lines hl]⟩

end

/-! ## The table -/

section
variable [PyUnicode]

theorem accepted_over {P : ℕ → Prop} (hP : ∀ c, Plain c → P c) {r : Record} {line : Str}
    (h : (r.read line).res = .ok true) (hl : Over P line) : RecOver P (r.read line).obj := by
  obtain ⟨t, k, fs, hi⟩ := read_isLine h
  obtain ⟨h1, h2, _, h4, _⟩ := C75_read hi
  refine ⟨?_, ?_, fun f hf => ?_⟩
  · rw [h2]; exact over_section hP hi.section_
  · rw [h1]; exact over_padded hl hi.padded
  · rw [h4] at hf
    obtain ⟨g, hg, rfl⟩ := List.mem_map.1 hf
    rw [hi.fields] at hg
    obtain ⟨e, he, l, hl', hg⟩ := fieldsOf_mem hg
    exact ⟨over_lit hP (List.all_eq_true.1 (List.all_eq_true.1 (List.all_eq_true.1 names_plain e he) l hl') g hg),
      over_pick hl _⟩

theorem decode_rows {r : Record} {output : Bool} {legs : Legs} {rows : List Row}
    (hr : (r.decode output legs).res = .ok rows) : (decodeRows r.info r.fields legs).res = .ok rows := by
  unfold Record.decode at hr
  simp only at hr
  cases hd : (decodeRows r.info r.fields legs).res with
  | error e => rw [hd] at hr; cases hr
  | ok rs => rw [hd] at hr; exact hr

/-- the text of the table of an accepted line, and its characters -/
theorem decode_text (width : Str → ℤ) {P : ℕ → Prop} (hP : ∀ c, Plain c → P c) {r : Record} {line : Str}
    (h : (r.read line).res = .ok true) (hl : Over P line) {output : Bool} {legs : Legs} (hg : Grown legs)
    {rows : List Row} (hr : ((r.read line).obj.decode output legs).res = .ok rows) :
    ∃ t, shownTable width rows = some t ∧ Over P t := by
  have hread := decode_readable h output hg hr
  obtain ⟨cells, hc⟩ : ∃ cells, rows.mapM Row.cells = some cells := by
    clear hr
    induction rows with
    | nil => exact ⟨[], rfl⟩
    | cons row rows ih =>
      obtain ⟨cs, hcs⟩ := ih fun r hr => hread r (by simp [hr])
      obtain ⟨s, _, hs⟩ := hread row (by simp)
      exact ⟨_, by rw [List.mapM_cons, hs, hcs]; rfl⟩
  have ho := accepted_over hP h hl
  have hrows := (decodeRows_over hP (rec := (r.read line).obj.info) ho.ident ho.raw ho.fields hg).2 rows (decode_rows hr)
  refine ⟨_, by unfold shownTable; rw [hc]; rfl, fun c hcc => ?_⟩
  obtain ⟨ts, rfl, hts⟩ := cells_texts hc
  rcases tableString_mem.1 hcc with hp | ⟨t, ht, x, hx, hcx⟩
  · exact hP c hp
  · obtain ⟨row, hrow, e1, e2, e3⟩ : ∃ row ∈ rows, t.name = row.field ∧ t.value = row.value ∧
        row.decoded.text = some t.decoded := by
      clear hc hcc hread hrows hr
      induction hts with
      | nil => cases ht
      | cons e _ ih =>
        rcases List.mem_cons.1 ht with rfl | ht
        · exact ⟨_, by simp, e⟩
        · obtain ⟨row, h1, h2⟩ := ih ht
          exact ⟨row, by simp [h1], h2⟩
    obtain ⟨o1, o2, o3⟩ := hrows row hrow
    simp only [cells3, List.mem_cons, List.not_mem_nil, or_false] at hx
    rcases hx with rfl | rfl | rfl
    · exact o1 c (e1 ▸ hcx)
    · exact o2 c (e2 ▸ hcx)
    · cases hd : row.decoded with
      | str s =>
        rw [hd] at e3 o3
        cases e3
        exact o3 c hcx
      | float x =>
        rw [hd] at e3
        exact hP c (repr_plain e3 c hcx)
      | none =>
        rw [hd] at e3
        have e3 : py!"None" = t.decoded := by cases t; cases e3; rfl
        rw [← e3] at hcx
        exact hP c (by clear hcc; revert c; unfold Plain; decide)

omit [PyUnicode] in
theorem plain_written : ∀ c, Plain c → c ≠ 13 ∧ (c < 0xD800 ∨ (0xDFFF < c ∧ c < 0x110000)) := by
  intro c hc; unfold Plain at hc; omega

/-- C116: The text that `decode` returns after a line was read that contains no CR and no surrogates (as every line
    of a text file, C89) can be written to a file and is read back unchanged, on either system. -/
theorem C116_decode (width : Str → ℤ) {r : Record} {line : Str} (h : (r.read line).res = .ok true)
    (hs : NoSurrogates line) (hc : 13 ∉ line) (output windows : Bool) {legs : Legs} (hg : Grown legs) {rows : List Row}
    (hr : ((r.read line).obj.decode output legs).res = .ok rows) :
    ∃ t b, shownTable width rows = some t ∧ save windows t = some b ∧ load b = some t := by
  obtain ⟨t, ht, ho⟩ := decode_text width plain_written h
    (fun c hcl => ⟨fun e => hc (e ▸ hcl), hs c hcl⟩) hg hr
  obtain ⟨b, hb⟩ := (save_iff windows t).2 fun c hc => (ho c hc).2
  exact ⟨t, b, ht, hb, (load_save hb).2 fun hc => (ho 13 hc).1 rfl⟩

omit [PyUnicode] in
theorem rule_chars (ws : List ℤ) : ∀ c ∈ tableRule ws, c = 43 ∨ c = 45 := by
  intro c h
  simp only [tableRule, List.mem_append, List.mem_flatMap, List.mem_replicate] at h
  rcases h with h | ⟨p, hp, ⟨_, h⟩ | h⟩
  · simp at h; omega
  · omega
  · simp at h; omega

omit [PyUnicode] in
theorem joinLF_last (ls : List Str) (l : Str) : ∃ p, joinLF (ls ++ [l]) = p ++ l ∧ (p = [] ∨ ∃ q, p = q ++ [10]) := by
  induction ls with
  | nil => exact ⟨[], rfl, .inl rfl⟩
  | cons m ls ih =>
    obtain ⟨p, hp, h⟩ := ih
    refine ⟨m ++ 10 :: p, ?_, .inr ?_⟩
    · obtain ⟨x, xs, hx⟩ : ∃ x xs, ls ++ [l] = x :: xs := by cases ls <;> exact ⟨_, _, rfl⟩
      rw [List.cons_append, hx, joinLF, ← hx, hp]
      · simp
      · simp
    · rcases h with rfl | ⟨q, rfl⟩
      · exact ⟨m, rfl⟩
      · exact ⟨m ++ 10 :: q, by simp⟩

/-- C116: README.md writes both to one file, `f.write(record.decode())` and then `f.write(record.json())`. The file is read
    back unchanged; its last line, without the characters `+` and `-` at its beginning (the table's lower edge), is the
    JSON text. -/
theorem C116_readme (width : Str → ℤ) {r : Record} {line : Str} (h : (r.read line).res = .ok true)
    (hs : NoSurrogates line) (hc : 13 ∉ line) (output windows : Bool) {legs : Legs} (hg : Grown legs) {rows : List Row}
    (hr : ((r.read line).obj.decode output legs).res = .ok rows) :
    ∃ t b, shownTable width rows = some t ∧
      save windows (t ++ ((r.read line).obj.json output true).1) = some b ∧
      load b = some (t ++ ((r.read line).obj.json output true).1) ∧
      ∃ ls last, Lines (t ++ ((r.read line).obj.json output true).1) (ls ++ [last]) ∧
        last.dropWhile (fun c => c == 43 || c == 45) = ((r.read line).obj.json output true).1 := by
  obtain ⟨t, ht, ho⟩ := decode_text width plain_written h
    (fun c hcl => ⟨fun e => hc (e ▸ hcl), hs c hcl⟩) hg hr
  have hj := json_ascii (r.read line).obj output true
  have hj' := (C40_printable (r.read line).obj output).1
  obtain ⟨u, hu⟩ : ∃ u, ((r.read line).obj.json output true).1 = 123 :: u := ⟨_, rfl⟩
  generalize ((r.read line).obj.json output true).1 = j at hj hj' hu
  have ha : ∀ c ∈ t ++ j, c ≠ 13 ∧ (c < 0xD800 ∨ (0xDFFF < c ∧ c < 0x110000)) := by
    intro c hc
    rcases List.mem_append.1 hc with hc | hc
    · exact ho c hc
    · have := hj c hc; omega
  obtain ⟨b, hb⟩ := (save_iff windows (t ++ j)).2 fun c hc => (ha c hc).2
  refine ⟨t, b, ht, hb, (load_save hb).2 fun hc => (ha 13 hc).1 rfl, ?_⟩
  obtain ⟨cells, _, rfl⟩ := Option.map_eq_some_iff.1 ht
  unfold tableString at *
  simp only at *
  generalize columnWidths width tableHead cells = ws at *
  obtain ⟨p, hp, hp'⟩ := joinLF_last (tableRule ws :: tableLine width ws tableHead :: tableRule ws ::
    cells.flatMap (tableRow width ws)) (tableRule ws)
  have e : tableRule ws :: tableLine width ws tableHead :: tableRule ws ::
      (cells.flatMap (tableRow width ws) ++ [tableRule ws]) = (tableRule ws :: tableLine width ws tableHead ::
      tableRule ws :: cells.flatMap (tableRow width ws)) ++ [tableRule ws] := by simp
  rw [e, hp, List.append_assoc]
  obtain ⟨lp, hlp⟩ := lines_exist p
  have hn : NoEOL (tableRule ws ++ j) := by
    intro c hc
    rcases List.mem_append.1 hc with hc | hc
    · have := rule_chars ws c hc; omega
    · have := hj' c hc; omega
  refine ⟨lp, tableRule ws ++ j, lines_append hlp (.last hn (by simp [hu])) ?_, ?_⟩
  · rcases hp' with rfl | ⟨q, rfl⟩
    · exact .nil _
    · exact .lf _ _
  · rw [List.dropWhile_append_of_pos, hu]
    · rfl
    · intro c hc
      have := rule_chars ws c hc
      simpa using this

end

section
attribute [local instance] Py.Tables.cpython311

/-- what comes back of the table of a line, if it differs -/
def changed (line : Str) : Bool :=
  match (Record.new.read line).res, ((Record.new.read line).obj.decode false legTypeDesc).res with
  | .ok true, .ok rows =>
    match shownTable (fun s => (s.length : ℤ)) rows with
    | some t =>
      match save false t with
      | some b => load b != some t
      | none => false
    | none => false
  | _, _ => false

/-- C116: The condition on CR is needed: a line given to `read` may contain one within a field. The line is accepted and
    decoded and the table is written, but the text that is read back is another one. (The JSON text is not affected: it has
    `\\r` in the place of the CR.) -/
theorem C116_refuted_CR : ∃ line rows t b, (Record.new.read line).res = .ok true ∧
    ((Record.new.read line).obj.decode false legTypeDesc).res = .ok rows ∧
    shownTable (fun s => (s.length : ℤ)) rows = some t ∧ save false t = some b ∧ load b ≠ some t := by
  have h : changed (Sample.airport.set 95 13) = true := by decide +kernel
  unfold changed at h
  split at h
  · next rows h1 h2 =>
    split at h
    · next t h3 =>
      split at h
      · next b h4 => exact ⟨_, rows, t, b, h1, h2, h3, h4, by simpa using h⟩
      · cases h
    · cases h
  · cases h

/-- both records of a file, written as one JSON text a line -/
example : ∃ b s ls, save true (terminated [10] ([(Record.new.read Sample.airport).obj, (Record.new.read Sample.vhf).obj].map
    fun r => (r.json false true).1)) = some b ∧ load b = some s ∧ Lines s ls ∧ ls.length = 2 := by
  obtain ⟨b, s, h1, h2, h3, _⟩ := C116_json_lines [(Record.new.read Sample.airport).obj, (Record.new.read Sample.vhf).obj]
    false true
  exact ⟨b, s, _, h1, h2, h3, rfl⟩

/-- the hypotheses of C116_decode and C116_readme are met -/
example : (Record.new.read Sample.airport).res = .ok true ∧ NoSurrogates Sample.airport ∧ 13 ∉ Sample.airport ∧
    Grown legTypeDesc ∧
    (match ((Record.new.read Sample.airport).obj.decode false legTypeDesc).res with | .ok rows => !rows.isEmpty | _ => false) = true :=
  ⟨by decide +kernel, by unfold NoSurrogates; decide +kernel, by decide +kernel, grown_init, by decide +kernel⟩

/-- the hypotheses of C116_lines are met -/
example : (∀ l ∈ [Sample.airport, Sample.vhf], NoEOL l) ∧ ∀ l ∈ [Sample.airport, Sample.vhf], NoSurrogates l := by
  unfold NoSurrogates; decide +kernel

/-- a letter outside ASCII, and a line end, on either system -/
example : save false (py!"Z" ++ [252, 10]) = some [90, 195, 188, 10] ∧
    save true (py!"Z" ++ [252, 10]) = some [90, 195, 188, 13, 10] ∧
    load [90, 195, 188, 13, 10] = some (py!"Z" ++ [252, 10]) ∧ save false [0xD83D] = none ∧
    (save false [13]).bind load = some [10] := by decide +kernel

end
end Arinc
