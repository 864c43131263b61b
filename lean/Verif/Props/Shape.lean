import Verif.Lemmas.Layout
import Verif.Props.Samples
/-!
# C01 - C08: which lines `Record.read` accepts, and what it extracts

Every theorem holds for every Python character database (`[PyUnicode]`) and every prior
state `r` of the `Record` object.
-/
namespace Arinc
open Py Spec

section
variable [PyUnicode]

/-! ## C01 shape gate -/

/-- C01: an accepted line is a record up to surrounding whitespace (and `raw` is that record). -/
theorem C01_accepts_only_records (r : Record) (line : Str) (h : (r.read line).res = .ok true) :
    ∃ t, Padded line t ∧ IsRecord t ∧ (r.read line).obj.raw = t := by
  obtain ⟨k, d, l, ha⟩ := accepted h
  exact ⟨_, padded_strip line, ha.isRec, by rw [ha.read]; rfl⟩

/-- C01: any other line is rejected with `False`, silently, leaving the object as it was. -/
theorem C01_rejects_others (r : Record) (line : Str)
    (h : ¬ ∃ t, Padded line t ∧ IsRecord t) : r.read line = ⟨.ok false, r, []⟩ := by
  rcases read_cases r line with ⟨_, h'⟩ | ⟨hrec, _⟩ | ⟨hrec, _⟩
  · exact h'
  · exact absurd ⟨_, padded_strip line, hrec⟩ h
  · exact absurd ⟨_, padded_strip line, hrec⟩ h

/-! ## C02 section gate -/

/-- C02: a record whose section is unsupported is rejected silently; only `raw` changes. -/
theorem C02_unsupported_section (r : Record) (line t : Str) (hp : Padded line t) (ht : IsRecord t)
    (h1 : cols line 4 6 ∉ supported) (h2 : col line 4 ++ col line 12 ∉ supported) :
    r.read line = ⟨.ok false, { r with raw := t }, []⟩ := by
  have hs := isRecord_strip hp ht
  rcases read_cases r line with ⟨hw, _⟩ | ⟨_, _, h'⟩ | ⟨_, k, d, hres, _⟩
  · exact absurd ⟨t, hp, ht⟩ hw
  · rw [h', hs]
  · exfalso
    unfold resolve at hres
    rw [if_neg h1, if_neg h2] at hres
    cases hres

/-! ## C03 section resolution -/

/-- C03: the ident of an accepted record is a supported code: columns 5-6 if these are one,
    else columns 5 and 13. -/
theorem C03_resolution (r : Record) (line : Str) (h : (r.read line).res = .ok true) :
    (r.read line).obj.ident ∈ supported ∧
    (r.read line).obj.ident =
      if cols line 4 6 ∈ supported then cols line 4 6 else col line 4 ++ col line 12 := by
  obtain ⟨k, d, l, ha⟩ := accepted h
  have hk : (r.read line).obj.ident = k := by rw [ha.read]; rfl
  rw [hk]
  have := ha.res
  unfold resolve at this
  split at this
  · next h1 => cases this; exact ⟨h1, by rw [if_pos h1]⟩
  · next h1 =>
    split at this
    · next h2 => cases this; exact ⟨h2, by rw [if_neg h1]⟩
    · cases this

/-! ## C04 verbatim extraction, C06 layout determinism -/

/-- C04 and C06 in one: there is one fixed table giving, for each section, each of
    primary/continuation and each application type, the names and columns of the fields; the
    fields of every accepted line are the record's own columns according to that table. Columns
    are within the record; a field is one run of columns, or columns 5 and 13. -/
theorem C04_C06_fixed_columns :
    ∃ F : Str → Bool → Str → List (Str × List Nat),
      (∀ k p a, ∀ nc ∈ F k p a, nc.2 ≠ [] ∧ (∀ c ∈ nc.2, c < 132) ∧
        ((∃ lo n, nc.2 = List.range' lo n) ∨ nc.2 = [4, 12])) ∧
      ∀ (r : Record) (line : Str), NoLeadingSpace line → (r.read line).res = .ok true →
        let o := (r.read line).obj
        o.fields.map (fun f => (f.name, f.value)) =
          (F o.ident o.primary (pick o.raw (appColumns o.ident))).map
            (fun nc => (nc.1, pick o.raw nc.2)) := by
  refine ⟨fun k p a => (layoutOf k p a).map (fun s => (s.name, s.slice.columns)), ?_, ?_⟩
  · intro k p a nc hnc
    simp only [List.mem_map] at hnc
    obtain ⟨s, hs, rfl⟩ := hnc
    exact layoutOf_columns hs
  · intro r line hn h
    obtain ⟨k, d, l, ha⟩ := accepted h
    have hl := (accepted_layoutOf hn ha)
    simp only [ha.read]
    simp only [List.map_map]
    have e2 : pick (strip line) (appColumns k) = pick line (appColumns k) :=
      (pick_strip ha.isRec hn (appColumns_lt k)).symm
    show _ = (layoutOf k (Record.primary _) (pick (strip line) (appColumns k))).map _
    rw [e2, primary_fields, ← hl]
    apply List.map_congr_left
    intro s hs
    simp only [Function.comp, FieldSpec.field, Prod.mk.injEq, true_and]
    have hb := (ha.facts.layouts l ha.mem).1
    exact pick_strip ha.isRec hn (columns_lt (List.all_eq_true.1 hb s hs))

/-- C04: no field is truncated or altered: each value is the text of a non-empty set of columns
    of the record and has exactly as many characters. -/
theorem C04_verbatim (r : Record) (line : Str) (hn : NoLeadingSpace line)
    (h : (r.read line).res = .ok true) :
    ∃ t, Padded line t ∧ IsRecord t ∧ ∀ f ∈ (r.read line).obj.fields,
      ∃ cs, cs ≠ [] ∧ (∀ c ∈ cs, c < 132) ∧ ((∃ lo n, cs = List.range' lo n) ∨ cs = [4, 12]) ∧
        f.value = pick t cs ∧ f.value.length = cs.length := by
  obtain ⟨k, d, l, ha⟩ := accepted h
  refine ⟨_, padded_strip line, ha.isRec, ?_⟩
  intro f hf
  rw [ha.read] at hf
  obtain ⟨s, hs, rfl⟩ := List.mem_map.1 hf
  have hb := List.all_eq_true.1 (ha.facts.layouts l ha.mem).1 s hs
  have hc := columns_lt hb
  obtain ⟨h1, h2, h3⟩ := layout_columns ha.lookup ha.mem hs
  refine ⟨s.slice.columns, h1, h2, h3, pick_strip ha.isRec hn hc, ?_⟩
  simp only [FieldSpec.field]
  rw [pick_strip ha.isRec hn hc]
  exact pick_length (by rw [ha.isRec.length]; exact hc)

/-- C06: two accepted lines agreeing on section, on being treated as primary and on application
    type have the same field names in the same order. -/
theorem C06_same_names (r₁ r₂ : Record) (l₁ l₂ : Str) (n₁ : NoLeadingSpace l₁)
    (n₂ : NoLeadingSpace l₂) (h₁ : (r₁.read l₁).res = .ok true) (h₂ : (r₂.read l₂).res = .ok true)
    (hid : (r₁.read l₁).obj.ident = (r₂.read l₂).obj.ident)
    (hp : (r₁.read l₁).obj.primary = (r₂.read l₂).obj.primary)
    (happ : pick (r₁.read l₁).obj.raw (appColumns (r₁.read l₁).obj.ident) =
      pick (r₂.read l₂).obj.raw (appColumns (r₂.read l₂).obj.ident)) :
    (r₁.read l₁).obj.fields.map Field.name = (r₂.read l₂).obj.fields.map Field.name := by
  obtain ⟨F, _, hF⟩ := C04_C06_fixed_columns
  have e₁ := congrArg (List.map Prod.fst) (hF r₁ l₁ n₁ h₁)
  have e₂ := congrArg (List.map Prod.fst) (hF r₂ l₂ n₂ h₂)
  rw [happ, hid, hp] at e₁
  simp only [List.map_map] at e₁ e₂
  have : (r₁.read l₁).obj.fields.map (Prod.fst ∘ fun f => (f.name, f.value)) =
      (r₂.read l₂).obj.fields.map (Prod.fst ∘ fun f => (f.name, f.value)) := by
    rw [e₁, e₂]; simp [Function.comp_def]
  exact this

/-! ## C05 envelope -/

/-- C05: first field is Record Type, last two are File Record No and Cycle Date, cut from the
    first column and the last nine, which are `S`/`T` and numeric. -/
theorem C05_envelope (r : Record) (line : Str) (hn : NoLeadingSpace line)
    (h : (r.read line).res = .ok true) :
    ∃ t mid, Padded line t ∧ IsRecord t ∧
      (r.read line).obj.fields.map (fun f => (f.name, f.value)) =
        (py!"Record Type", cols t 0 1) :: mid ++
          [(py!"File Record No", cols t 123 128), (py!"Cycle Date", cols t 128 132)] ∧
      (cols t 0 1 = py!"S" ∨ cols t 0 1 = py!"T") ∧
      (cols t 123 128).length = 5 ∧ (cols t 128 132).length = 4 ∧
      isNumeric (cols t 123 128) = true ∧ isNumeric (cols t 128 132) = true := by
  obtain ⟨k, d, l, ha⟩ := accepted h
  obtain ⟨mid, hm⟩ := envelope ha.lookup ha.mem
  have hlen := ha.isRec.length
  have e1 : ∀ lo hi, hi ≤ 132 → lo ≤ hi →
      pick line (List.range' lo (hi - lo)) = cols (strip line) lo hi := by
    intro lo hi h1 h2
    rw [cols_eq_pick (by omega) h2]
    exact pick_strip ha.isRec hn (by intro c hc; rw [List.mem_range'_1] at hc; omega)
  have enum : ∀ lo hi, 123 ≤ lo → lo < hi → hi ≤ 132 → isNumeric (cols (strip line) lo hi) = true := by
    intro lo hi h1 h2 h3
    have hl : (cols (strip line) lo hi).length = hi - lo := by
      rw [cols, List.length_take, List.length_drop, hlen]; omega
    unfold isNumeric
    rw [Bool.and_eq_true]
    constructor
    · cases hc : cols (strip line) lo hi with
      | nil => rw [hc] at hl; simp at hl; omega
      | cons _ _ => rfl
    · rw [List.all_eq_true]
      intro c hc
      apply ha.isRec.tail
      have : (strip line).drop lo = ((strip line).drop 123).drop (lo - 123) := by
        rw [List.drop_drop, Nat.add_sub_cancel' h1]
      rw [cols, this] at hc
      exact List.mem_of_mem_drop (List.mem_of_mem_take hc)
  refine ⟨strip line, mid.map (fun s => (s.name, pick line s.slice.columns)), padded_strip line,
    ha.isRec, ?_, ?_, ?_, ?_, enum _ _ (by omega) (by omega) (by omega),
    enum _ _ (by omega) (by omega) (by omega)⟩
  · rw [ha.read]
    simp only [hm, List.map_cons, List.map_append, List.map_nil, FieldSpec.field, List.map_map,
      Function.comp_def]
    have g1 : pick line (Slice.at 0).columns = cols (strip line) 0 1 := e1 0 1 (by omega) (by omega)
    have g2 : pick line (Slice.range 123 128).columns = cols (strip line) 123 128 :=
      e1 123 128 (by omega) (by omega)
    have g3 : pick line (Slice.range 128 132).columns = cols (strip line) 128 132 :=
      e1 128 132 (by omega) (by omega)
    rw [g1, g2, g3]
  · cases ht : strip line with
    | nil => rw [ht] at hlen; simp at hlen
    | cons c s =>
      have := ha.isRec.first
      rw [ht] at this
      simpa [cols] using this
  · simp [cols]; omega
  · simp [cols]; omega

/-! ## C07 trailing whitespace -/

/-- C07: whitespace after the line changes nothing at all (even if there is some in front). -/
theorem C07_trailing_whitespace (r : Record) (line ws : Str) (hw : AllSpace ws) :
    r.read (line ++ ws) = r.read line := read_append_space line ws hw r

/-! ## C08 leading whitespace -/

/-- C08 (partial): whitespace in front of a line never changes whether the line passes the
    shape gate nor the `raw` text of an accepted record. Missing: same section, same fields, same
    result, all of which are false (`C08_refuted`). -/
theorem C08_leading_whitespace_partial (r : Record) (line ws : Str) (hw : AllSpace ws) :
    ((∃ t, Padded (ws ++ line) t ∧ IsRecord t) ↔ (∃ t, Padded line t ∧ IsRecord t)) ∧
    ((r.read line).res = .ok true → (r.read (ws ++ line)).obj.raw = (r.read line).obj.raw) := by
  have hs : strip (ws ++ line) = strip line := strip_space_append hw
  constructor
  · rw [← WellShaped, ← WellShaped, ← validate_iff, ← validate_iff, validate_iff_isRecord,
      validate_iff_isRecord, hs]
  · intro h
    obtain ⟨k, d, l, ha⟩ := accepted h
    have hrec : IsRecord (strip (ws ++ line)) := by rw [hs]; exact ha.isRec
    have h1 : (r.read line).obj.raw = strip line := by rw [ha.read]; rfl
    rw [h1, ← hs]
    rcases read_cases r (ws ++ line) with ⟨hw', _⟩ | ⟨_, _, h'⟩ | ⟨_, k', d', _, _, _, h'⟩
    · exact absurd ⟨_, padded_strip _, hrec⟩ hw'
    · rw [h']
    · rw [h']
      simp only [Record.readAs, Record.finish]
      split
      · rfl
      · split <;> rfl

end

/-! ## Refutation of C08 and non-vacuity -/

attribute [local instance] Py.Tables.cpython311

/-- C08 is false: one blank in front of a valid airport record makes `read` reject it. -/
theorem C08_refuted : ∃ line ws, AllSpace ws ∧ (Record.new.read line).res = .ok true ∧
    (Record.new.read (ws ++ line)).res = .ok false :=
  ⟨Sample.airport, [32], by simp [AllSpace]; decide, by decide +kernel, by decide +kernel⟩

/-- ... and a continuation record's application type makes it worse: with eight blanks in front
    other columns can form a section, so the line can be accepted with shifted fields. -/
theorem C08_refuted_fields : ∃ line ws, AllSpace ws ∧ (Record.new.read line).res = .ok true ∧
    (Record.new.read (ws ++ line)).res = .ok true ∧
    (Record.new.read (ws ++ line)).obj.fields ≠ (Record.new.read line).obj.fields :=
  ⟨Sample.shifty, [32], by simp [AllSpace]; decide, by decide +kernel, by decide +kernel, by decide +kernel⟩

/-- the hypotheses of C01/C03/C04/C05/C06/C07 are met by an airport record -/
example : (Record.new.read Sample.airport).res = .ok true ∧ NoLeadingSpace Sample.airport ∧
    (Record.new.read Sample.airport).obj.fields.length = 28 := by
  refine ⟨by decide +kernel, ?_, by decide +kernel⟩
  intro c hc; cases hc; decide
/-- C01: there are lines that are not records -/
example : (Record.new.read (py!"hello")).res = .ok false := by decide +kernel
/-- C02: hypotheses are met by a line of section `PZ` -/
example : IsRecord Sample.noSection ∧ cols Sample.noSection 4 6 ∉ supported ∧
    col Sample.noSection 4 ++ col Sample.noSection 12 ∉ supported :=
  ⟨⟨by decide +kernel, by decide +kernel, by decide +kernel⟩, by decide +kernel, by decide +kernel⟩

end Arinc
