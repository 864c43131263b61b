import Verif.Lemmas.Consistency
import Verif.Props.Files
import Verif.Props.Json
import Verif.Props.Continuation
import Verif.Props.Decode
import Verif.Props.Samples
/-!
# C66 - C69: the ways of using the library agree with each other
-/
namespace Arinc
open Py Spec

section
variable [PyUnicode]

/-! ## C66 reading the same line again -/

/-- C66: reading a line again returns, prints and raises the same and leaves the object as it is. -/
theorem C66_read_twice (r : Record) (line : Str) :
    ((r.read line).obj.read line).res = (r.read line).res ∧
    ((r.read line).obj.read line).out = (r.read line).out ∧
    ((r.read line).obj.read line).obj = (r.read line).obj := by
  rw [read_twice]; exact ⟨rfl, rfl, rfl⟩

/-! ## C67 searching what was found -/

/-- C67 (partial): searching the text `search` printed gives the same result and prints the same again,
    if nothing raises, no record has an invalid continuation number (the diagnostics `read` prints for
    these would not be printed again) and no record found has blanks in front. Missing: records with
    blanks in front, for which it is false (`C67_refuted`). -/
theorem C67_search_again_partial (s : Str) (ls : List Str) (h : Lines s ls) (filters : Filters)
    (hok : ∀ l ∈ ls, ∀ e, (Record.new.read l).res ≠ .error e)
    (hq : ∀ l ∈ ls, ¬ ∃ t k i, BadContinuationNo l t k i)
    (hlead : ∀ l ∈ ls, Hit filters l → NoLeadingSpace l) :
    search (.text (fileOf (printedLines (search (.text s) filters).2))) filters =
      search (.text s) filters := by
  have hn : ∀ l ∈ (hits filters ls).map strip, NoEOL l := by
    intro t ht
    obtain ⟨l, hl, rfl⟩ := List.mem_map.1 ht
    exact noEOL_strip (lines_noEOL h l (hits_mem hl).1)
  have hL : Lines (fileOf ((hits filters ls).map strip)) ((hits filters ls).map strip) := by
    have := lines_terminated (eol := [10]) (.inl rfl) hn noEOL_nil
    simpa [fileOf] using this
  have hacc : ∀ t ∈ (hits filters ls).map strip, (Record.new.read t).res = .ok true := by
    intro t ht
    obtain ⟨l, hl, rfl⟩ := List.mem_map.1 ht
    obtain ⟨hm, hh⟩ := hits_mem hl
    rw [← read_strip (hlead l hm hh)]; exact hh.1
  have hpr : printedLines (search (.text s) filters).2 = (hits filters ls).map strip := by
    rw [C33_exact s ls h filters hok hq, printed_found]
  rw [hpr, C33_exact _ _ hL filters (fun t ht e => by rw [hacc t ht]; simp)
    (fun t ht ⟨_, _, _, hb⟩ => by
      have := (C12_bad_continuation_no Record.new t _ _ _ hb).1
      rw [hacc t ht] at this; cases this), hits_strip hlead, C33_exact s ls h filters hok hq]
  simp [strip_strip]

/-! ## C68 reading a file and searching it -/

/-- C68: if `read_file` of a file returns normally, then so does `search`; and the tables `read_file`
    prints are, one by one and in order, those of the records `search` finds (with a filter every text
    contains). -/
theorem C68_tables_of_hits (s : Str) (ls : List Str) (h : Lines s ls) (legs : Legs) (hl : Grown legs)
    (hr : (readFile (.text s) true legs).res = .ok ()) :
    (search (.text s) (.str [])).1 = .ok () ∧
    (tables (readFile (.text s) true legs).out).map .ok =
      (hits (.str []) ls).map (fun l => ((Record.new.read l).obj.decode true legTypeDesc).res) := by
  rw [readFile_lines h] at hr
  have hok := parseLines_ok_iff hl hr
  refine ⟨?_, ?_⟩
  · rw [C33_prints s ls h (.str []) (fun l hl e => read_noRaise (hok l hl) e)]
  · rw [readFile_lines h, (parseLines_ok hok hl).2]
    clear h hr
    induction ls with
    | nil => rfl
    | cons l ls ih =>
      have ih := ih (fun x hx => hok x (by simp [hx]))
      rw [List.flatMap_cons, tables_append]
      by_cases ha : (Record.new.read l).res = .ok true
      · obtain ⟨rows, h1, h2⟩ := parse_table (hok l (by simp)) ha
        rw [hits_cons_pos (filters := .str []) ⟨ha, List.nil_infix⟩, h1]
        simp only [List.map_append, List.map_cons, List.map_nil, ih, h2]
        rfl
      · rw [hits_cons_neg (fun hh => ha hh.1), parse_noTable ha (hok l (by simp))]
        exact ih

/-- C68: so the number of tables `read_file` prints is the number `search` reports. -/
theorem C68_count (s : Str) (legs : Legs) (hl : Grown legs)
    (hr : (readFile (.text s) true legs).res = .ok ()) :
    (search (.text s) (.str [])).2.getLast? =
      some (.summary (tables (readFile (.text s) true legs).out).length (.str [])
        ((tables (readFile (.text s) true legs).out).length != 0)) := by
  obtain ⟨ls, h⟩ := lines_exist s
  have h1 := congrArg List.length (C68_tables_of_hits s ls h legs hl hr).2
  rw [List.length_map, List.length_map] at h1
  rw [readFile_lines h] at hr
  have hok := parseLines_ok_iff hl hr
  rw [h1, C33_prints s ls h (.str []) (fun l hl e => read_noRaise (hok l hl) e)]
  simp

/-! ## C69 the table and the JSON object -/

/-- C69 (partial): for a record whose field names are distinct, the table and the JSON object show the
    same names and values; in the single-line form in the same order. Missing: records that repeat a field
    name, for which it is false (`C69_refuted`). -/
theorem C69_table_and_json_partial (r : Record) (o : Bool) (legs : Legs) (hl : Grown legs) (rows : List Row)
    (hn : (r.fields.map (·.name)).Nodup)
    (hp : ∀ f ∈ r.fields, PlainText f.name ∧ PlainText f.value)
    (h : (r.decode o legs).res = .ok rows) :
    jsonObject (r.json o true).1 = some (rows.map (fun row => (row.field, unquoted row.value))) ∧
    ∃ d, jsonObject (r.json o false).1 = some d ∧
      d.Perm (rows.map (fun row => (row.field, unquoted row.value))) := by
  obtain ⟨h1, h2, _⟩ := C19_table r o legs hl rows h
  have hrows : rows.map (fun row => (row.field, unquoted row.value)) =
      r.fields.map (fun f => (f.name, f.value)) := by
    apply List.ext_getElem?
    intro i
    rw [List.getElem?_map, List.getElem?_map]
    cases hf : r.fields[i]? with
    | none =>
      have : rows[i]? = none := by
        rw [List.getElem?_eq_none_iff] at hf ⊢; omega
      rw [this]; rfl
    | some f =>
      obtain ⟨v, _, hv⟩ := h2 i f hf
      rw [hv]
      simp [unquoted]
  have hd : dictOf r.fields = r.fields.map (fun f => (f.name, f.value)) := dictOf_of_nodup hn
  have hj := jsonObject_dumps (dictOf_plain hp)
  obtain ⟨d, d', h3, h4, h5, _⟩ := C38_same_object r o o hp
  have h6 : jsonObject (r.json o true).1 = some (r.fields.map (fun f => (f.name, f.value))) := by
    rw [← hd]; exact hj
  rw [hrows]
  refine ⟨h6, d', h4, ?_⟩
  rw [h6] at h3
  rw [Option.some.inj h3]
  exact h5

end

/-! ## Examples -/

section
attribute [local instance] Py.Tables.cpython311

/-- C66: also for a line that raises, on an object that holds another record -/
example : ((Record.new.read Sample.airport).obj.read Sample.airwayContZ).res = .error .valueError := by
  decide +kernel

/-- C67 is false of a file with a blank in front of a record: what is printed is no record. -/
theorem C67_refuted : ∃ s filters, (search (.text s) filters).1 = .ok () ∧
    search (.text (fileOf (printedLines (search (.text s) filters).2))) filters ≠ search (.text s) filters :=
  ⟨32 :: Sample.shiftyVhf ++ [10], .str (py!"ACV"), by decide +kernel, by decide +kernel⟩

/-- C67 (hypotheses are met): an airport record among other lines -/
example : search (.text (fileOf (printedLines
      (search (.text (terminated [10] [Sample.airport, Sample.noSection, Sample.vhf])) (.str (py!"SEA"))).2)))
      (.str (py!"SEA")) =
    search (.text (terminated [10] [Sample.airport, Sample.noSection, Sample.vhf])) (.str (py!"SEA")) := by
  have hL : Lines (terminated [10] [Sample.airport, Sample.noSection, Sample.vhf])
      [Sample.airport, Sample.noSection, Sample.vhf] := by
    have := lines_terminated (eol := [10]) (.inl rfl) (ls := [Sample.airport, Sample.noSection, Sample.vhf])
      (by unfold NoEOL; decide +kernel) noEOL_nil
    simpa using this
  refine C67_search_again_partial _ _ hL _ ?_ ?_ ?_
  · simp only [List.mem_cons, List.not_mem_nil, or_false]
    rintro l (rfl | rfl | rfl) e <;> intro h
    · rw [show (Record.new.read Sample.airport).res = .ok true by decide +kernel] at h; cases h
    · rw [show (Record.new.read Sample.noSection).res = .ok false by decide +kernel] at h; cases h
    · rw [show (Record.new.read Sample.vhf).res = .ok true by decide +kernel] at h; cases h
  · simp only [List.mem_cons, List.not_mem_nil, or_false]
    rintro l (rfl | rfl | rfl) ⟨t, k, i, hb⟩
    · have := (C12_bad_continuation_no Record.new _ _ _ _ hb).1
      rw [show (Record.new.read Sample.airport).res = .ok true by decide +kernel] at this; cases this
    · obtain ⟨nm, _, h⟩ := (C12_bad_continuation_no Record.new _ _ _ _ hb).2
      rw [show (Record.new.read Sample.noSection).out = [] by decide +kernel] at h; cases h
    · have := (C12_bad_continuation_no Record.new _ _ _ _ hb).1
      rw [show (Record.new.read Sample.vhf).res = .ok true by decide +kernel] at this; cases this
  · simp only [List.mem_cons, List.not_mem_nil, or_false]
    rintro l (rfl | rfl | rfl) _ c hc <;> cases hc <;> decide
/-- ... and something is found -/
example : (search (.text (terminated [10] [Sample.airport, Sample.noSection, Sample.vhf]))
    (.str (py!"SEA"))).2.length = 2 := by decide +kernel

/-- C68 (hypotheses are met): two records and a line that is none -/
example : (readFile (.text (terminated [10] [Sample.airport, Sample.noSection, Sample.vhf])) true
      legTypeDesc).res = .ok () ∧
    (tables (readFile (.text (terminated [10] [Sample.airport, Sample.noSection, Sample.vhf])) true
      legTypeDesc).out).length = 2 := by
  constructor <;> decide +kernel

/-- C69 is false of a record that repeats a field name: the table has a row whose value the JSON object
    does not have. -/
theorem C69_refuted : ∃ line rows, (Record.new.read line).res = .ok true ∧
    ((Record.new.read line).obj.decode false legTypeDesc).res = .ok rows ∧
    ∃ row ∈ rows, ∀ d, jsonObject ((Record.new.read line).obj.json false true).1 = some d →
      (row.field, unquoted row.value) ∉ d := by
  refine ⟨Sample.route, ((Record.new.read Sample.route).obj.decode false legTypeDesc).res.toOption.getD [],
    by decide +kernel, by decide +kernel, ⟨py!"ICAO Code", py!"'K1'", .str (py!"K1")⟩,
    by decide +kernel, ?_⟩
  intro d hd
  have : jsonObject ((Record.new.read Sample.route).obj.json false true).1 =
      some (Record.new.read Sample.route).obj.dict := by decide +kernel
  rw [this] at hd
  rw [← Option.some.inj hd]
  decide +kernel

/-- C69 (hypotheses are met): an airport record -/
example : ((Record.new.read Sample.airport).obj.fields.map (·.name)).Nodup ∧
    NoSurrogates Sample.airport ∧
    ((Record.new.read Sample.airport).obj.decode true legTypeDesc).res.toOption.isSome = true := by
  refine ⟨by decide +kernel, by unfold NoSurrogates; decide +kernel, by decide +kernel⟩

end
end Arinc
