import Verif.Lemmas.Json
import Verif.Lemmas.Parse
import Verif.Lemmas.Layout
import Verif.Props.Samples
/-!
# C37 - C40: `json()`

`jsonObject` (Spec/Json.lean) is an independent reader of JSON texts. The theorems are about every
`Record` state, however it was reached.
-/
namespace Arinc
open Py Spec

/-! ## C37 round trip -/

/-- C37: the text `json()` returns is a JSON object; read back, it has the field names in order of first
    occurrence, each once, and each with the value of the last field of that name. -/
theorem C37_round_trip (r : Record) (output : Bool)
    (h : ∀ f ∈ r.fields, PlainText f.name ∧ PlainText f.value) :
    ∃ d, jsonObject (r.json output true).1 = some d ∧
      d.map Prod.fst = (r.fields.map (·.name)).eraseDups ∧
      (d.map Prod.fst).Nodup ∧
      ∀ n v, (n, v) ∈ d ↔
        ((r.fields.filter (fun f => f.name == n)).getLast?).map (·.value) = some v := by
  have hd : ∀ p ∈ dictOf r.fields, PlainText p.1 ∧ PlainText p.2 := dictOf_plain h
  exact ⟨dictOf r.fields, jsonObject_dumps hd, dictOf_keys _, dictOf_nodup _, dictOf_mem _⟩

/-- C37: `json()` prints the text if asked to, and nothing else. -/
theorem C37_output (r : Record) (single_line : Bool) :
    (r.json true single_line).2 = [.line (r.json true single_line).1] ∧
    (r.json false single_line).2 = [] ∧
    (r.json true single_line).1 = (r.json false single_line).1 := ⟨rfl, rfl, rfl⟩

theorem pair_drop {s : Str} (n : Nat) (h : NoSurrogatePair s) : NoSurrogatePair (s.drop n) := by
  induction n generalizing s with
  | zero => exact h
  | succ n ih =>
    cases s with
    | nil => trivial
    | cons u s =>
      cases s with
      | nil => simpa using ih (s := []) trivial
      | cons v s => exact ih h.2

theorem pair_take {s : Str} (n : Nat) (h : NoSurrogatePair s) : NoSurrogatePair (s.take n) := by
  induction s generalizing n with
  | nil => simpa using h
  | cons u s ih =>
    cases n with
    | zero => trivial
    | succ n =>
      cases s with
      | nil => simpa using h
      | cons v s =>
        have := ih n h.2
        cases n with
        | zero => trivial
        | succ n => exact ⟨h.1, this⟩

theorem supported_ascii : ∀ k ∈ supported, ∀ c ∈ k, c < 128 := by decide +kernel

/-- the section letter of a line with a supported section is an ASCII character -/
theorem section_ascii {line k : Str} (h : Resolves line k) {c : Nat} (hc : line[4]? = some c) : c < 128 := by
  have hm : c ∈ cols line 4 6 ∧ c ∈ col line 4 := by
    constructor
    · have : (line.drop 4)[0]? = some c := by simpa using hc
      cases hd : line.drop 4 with
      | nil => rw [hd] at this; cases this
      | cons a t => rw [hd] at this; cases this; simp [cols, hd]
    · simp [col, hc]
  cases h with
  | byPair h => exact supported_ascii _ h c hm.1
  | bySplit _ h => exact supported_ascii _ h c (List.mem_append_left _ hm.2)

/-- C37: the hypothesis holds after every successful `read` of a line that meets it. -/
theorem C37_accepted [PyUnicode] (r : Record) (line : Str) (hl : PlainText line)
    (h : (r.read line).res = .ok true) :
    ∀ f ∈ (r.read line).obj.fields, PlainText f.name ∧ PlainText f.value := by
  obtain ⟨k, d, l, ha⟩ := accepted h
  rw [accepted_fields ha]
  intro f hf
  obtain ⟨s, hs, rfl⟩ := List.mem_map.1 hf
  refine ⟨?_, ?_⟩
  · have := List.all_eq_true.1 plain_names _ (lookup_mem ha.lookup)
    have := List.all_eq_true.1 (List.all_eq_true.1 this l ha.mem) s hs
    exact of_decide_eq_true this
  · refine ⟨fun c hc => hl.1 c (mem_of_mem_pick hc), ?_⟩
    obtain ⟨_, hlt, hcs⟩ := layout_columns ha.lookup ha.mem hs
    have hlen := length_line ha.isRec
    show NoSurrogatePair (pick line s.slice.columns)
    rcases hcs with ⟨lo, n, e⟩ | e
    · rw [e]
      cases n with
      | zero => trivial
      | succ n =>
        have : lo + n < 132 := hlt _ (by rw [e]; simp)
        rw [pick_range' (by omega)]
        exact pair_take _ (pair_drop _ hl.2)
    · rw [e]
      have h4 : line[4]? = some line[4] := List.getElem?_eq_getElem (by omega)
      have h12 : line[12]? = some line[12] := List.getElem?_eq_getElem (by omega)
      have := section_ascii (resolve_iff.1 ha.res) h4
      simp only [pick, List.flatMap_cons, List.flatMap_nil, col, h4, h12]
      refine ⟨?_, trivial⟩
      simp only [highSurrogate, Bool.and_eq_false_iff, decide_eq_false_iff_not]
      omega

/-- C37: so, for a line that was read, the only hypothesis is on the line. -/
theorem C37_read [PyUnicode] (r : Record) (line : Str) (hl : PlainText line) (output : Bool)
    (h : (r.read line).res = .ok true) :
    ∃ d, jsonObject ((r.read line).obj.json output true).1 = some d ∧
      d.map Prod.fst = ((r.read line).obj.fields.map (·.name)).eraseDups ∧
      ∀ n v, (n, v) ∈ d ↔
        (((r.read line).obj.fields.filter (fun f => f.name == n)).getLast?).map (·.value) = some v := by
  obtain ⟨d, h1, h2, _, h4⟩ := C37_round_trip _ output (C37_accepted r line hl h)
  exact ⟨d, h1, h2, h4⟩

/-! ## C38 both styles -/

/-- C38: the multi-line text denotes the same members, sorted by name (by code points). -/
theorem C38_same_object (r : Record) (o₁ o₂ : Bool)
    (h : ∀ f ∈ r.fields, PlainText f.name ∧ PlainText f.value) :
    ∃ d d', jsonObject (r.json o₁ true).1 = some d ∧ jsonObject (r.json o₂ false).1 = some d' ∧
      d'.Perm d ∧ (d.map Prod.fst).Nodup ∧ (d'.map Prod.fst).Pairwise (· < ·) := by
  have hd : ∀ p ∈ dictOf r.fields, PlainText p.1 ∧ PlainText p.2 := dictOf_plain h
  have hp := sortItems_perm (dictOf r.fields)
  refine ⟨_, _, jsonObject_dumps hd, jsonObject_dumpsPretty (d := dictOf r.fields)
    (fun p hp' => hd p (hp.mem_iff.1 hp')), hp, dictOf_nodup _, ?_⟩
  have h1 : ((sortItems (dictOf r.fields)).map Prod.fst).Pairwise (· ≤ ·) :=
    List.pairwise_map.2 (sortItems_sorted _)
  have h2 : ((sortItems (dictOf r.fields)).map Prod.fst).Nodup :=
    (hp.map Prod.fst).nodup_iff.2 (dictOf_nodup _)
  have h3 := h1.and h2
  refine h3.imp ?_
  rintro a b ⟨hle, hne⟩
  exact Std.lt_of_le_of_ne hle hne

/-! ## C39 no field is lost -/

/-- C39: a field is in the JSON with its own value iff no later field of the same name has another
    value. -/
theorem C39_field_kept_iff (r : Record) (o : Bool)
    (h : ∀ f ∈ r.fields, PlainText f.name ∧ PlainText f.value) (pre post : List Field) (f : Field)
    (hf : r.fields = pre ++ f :: post) :
    ∃ d, jsonObject (r.json o true).1 = some d ∧
      ((f.name, f.value) ∈ d ↔
        ∀ g, (post.filter (fun g => g.name == f.name)).getLast? = some g → g.value = f.value) := by
  have hd : ∀ p ∈ dictOf r.fields, PlainText p.1 ∧ PlainText p.2 := dictOf_plain h
  refine ⟨dictOf r.fields, jsonObject_dumps hd, ?_⟩
  rw [dictOf_mem, hf, List.filter_append, List.filter_cons_of_pos (by simp), List.getLast?_append]
  cases hp : post.filter (fun g => g.name == f.name) with
  | nil => simp
  | cons g gs =>
    cases hg : (g :: gs).getLast? with
    | none => simp at hg
    | some x =>
      have : (f :: g :: gs).getLast? = some x := by rw [List.getLast?_cons_cons]; exact hg
      simp [this]

/-- C39 (partial): if the record kind does not repeat a name, every field of an accepted record is in
    the JSON. Missing: the kinds listed in `repeatsName`, for which the claim is false. -/
theorem C39_lossless_partial [PyUnicode] (r : Record) (line : Str) (hl : PlainText line) (o : Bool)
    (h : (r.read line).res = .ok true)
    (hk : repeatsName (r.read line).obj.ident (r.read line).obj.primary
      (pick line (appColumns (r.read line).obj.ident)) = false) :
    ∃ d, jsonObject ((r.read line).obj.json o true).1 = some d ∧
      d = (r.read line).obj.fields.map (fun f => (f.name, f.value)) := by
  have hn := (names_nodup_iff h).2 hk
  have hd := dictOf_plain (C37_accepted r line hl h)
  exact ⟨dictOf _, jsonObject_dumps hd, dictOf_of_nodup hn⟩

/-- C39: the list of exceptions is exact: all the others repeat a name. -/
theorem C39_exceptions_exact [PyUnicode] (r : Record) (line : Str) (h : (r.read line).res = .ok true) :
    ((r.read line).obj.fields.map (·.name)).Nodup ↔
      repeatsName (r.read line).obj.ident (r.read line).obj.primary
        (pick line (appColumns (r.read line).obj.ident)) = false := names_nodup_iff h

/-! ## C40 characters -/

/-- C40: the single-line text consists of printable ASCII characters (so no newline); the multi-line
    text of those and newlines. No hypothesis on the record. -/
theorem C40_printable (r : Record) (o : Bool) :
    (∀ c ∈ (r.json o true).1, 32 ≤ c ∧ c ≤ 126) ∧
    (∀ c ∈ (r.json o false).1, (32 ≤ c ∧ c ≤ 126) ∨ c = 10) := by
  constructor
  · intro c hc
    have : c ∈ [123] ++ jsonMembers (py!", ") (py!": ") (dictOf r.fields) ++ [125] := hc
    simp only [List.mem_append, List.mem_singleton] at this
    rcases this with (rfl | hc) | rfl
    · omega
    · exact jsonMembers_chars (P := fun c => 32 ≤ c ∧ c ≤ 126) (fun _ h1 h2 => ⟨h1, h2⟩)
        (by decide) (by decide) _ c hc
    · omega
  · intro c hc
    have hc : c ∈ dumpsPretty (dictOf r.fields) := hc
    unfold dumpsPretty at hc
    split at hc
    · simp only [List.mem_cons, List.not_mem_nil, or_false] at hc; omega
    · simp only [List.mem_append, List.mem_singleton] at hc
      rcases hc with (((rfl | hc) | hc) | rfl) | rfl
      · omega
      · have : ∀ c ∈ indent4, (32 ≤ c ∧ c ≤ 126) ∨ c = 10 := by decide
        exact this c hc
      · exact jsonMembers_chars (P := fun c => (32 ≤ c ∧ c ≤ 126) ∨ c = 10)
          (fun _ h1 h2 => .inl ⟨h1, h2⟩) (by decide) (by decide) _ c hc
      · omega
      · omega

/-! ## Refutations and non-vacuity -/
section
attribute [local instance] Py.Tables.cpython311

/-- C37 without its hypothesis is false: a high and a low surrogate in a row become one character. -/
theorem C37_refuted_surrogate_pair : ∃ r : Record, ∃ d,
    jsonObject (r.json false true).1 = some d ∧ ∃ f ∈ r.fields, r.fields = [f] ∧ (f.name, f.value) ∉ d := by
  refine ⟨⟨[], [], [], [⟨py!"x", [0xD83D, 0xDE00], .ident 31⟩], none⟩, [(py!"x", [0x1F600])],
    by decide +kernel, ?_⟩
  exact ⟨_, by simp, rfl, by decide +kernel⟩

/-- C39 is false: a company route record shows two ICAO codes; the JSON keeps the second only. -/
theorem C39_refuted : ∃ line, (Record.new.read line).res = .ok true ∧ NoSurrogates line ∧
    ∃ f ∈ (Record.new.read line).obj.fields, ∀ d,
      jsonObject ((Record.new.read line).obj.json false true).1 = some d → (f.name, f.value) ∉ d := by
  refine ⟨Sample.route, by decide +kernel, by unfold NoSurrogates; decide +kernel,
    ⟨py!"ICAO Code", py!"K1", .ident 14⟩, by decide +kernel, ?_⟩
  intro d hd
  have : jsonObject ((Record.new.read Sample.route).obj.json false true).1 =
      some (Record.new.read Sample.route).obj.dict := by decide +kernel
  rw [this] at hd
  rw [← Option.some.inj hd]
  decide +kernel

/-- C37, C38 (hypotheses are met): an airport record -/
example : (Record.new.read Sample.airport).res = .ok true ∧ NoSurrogates Sample.airport ∧
    ((Record.new.read Sample.airport).obj.fields.length = 28) :=
  ⟨by decide +kernel, by unfold NoSurrogates; decide +kernel, by decide +kernel⟩

/-- C37 (hypothesis is met): a line with unpaired surrogates, as `errors='surrogateescape'` gives, is read -/
example : let line := Sample.airport.set 30 0xDC80 |>.set 32 0xD800
    (Record.new.read line).res = .ok true ∧ PlainText line ∧ ¬ NoSurrogates line ∧ PlainText Sample.airport :=
  ⟨by decide +kernel, by decide +kernel, by unfold NoSurrogates; decide +kernel, by decide +kernel⟩

/-- C37 (is not vacuous): quotes, backslashes, control and non-ASCII characters -/
example : PlainText [34, 92, 10, 0, 127, 233, 0xD800, 0x1F600, 0xDC00] := by decide +kernel

/-- the reader is not trivial -/
example : jsonObject (py!" { \"a\\u0041\\ud83d\\ude00\" :\"\\n\", \"\":\"/\\/\" } ") =
      some [([97, 65, 0x1F600], [10]), ([], py!"//")] ∧
    jsonObject (py!"{\"a\": \"b\",}") = none ∧ jsonObject (py!"{\"a\": \"b\"} x") = none ∧
    jsonObject (py!"{}") = some [] := by decide +kernel

/-- C39 (hypotheses are met) -/
example : repeatsName (Record.new.read Sample.airport).obj.ident
    (Record.new.read Sample.airport).obj.primary
    (pick Sample.airport (appColumns (Record.new.read Sample.airport).obj.ident)) = false := by
  decide +kernel

end
end Arinc
