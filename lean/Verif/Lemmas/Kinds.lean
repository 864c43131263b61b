import Verif.Lemmas.Value
import Verif.Lemmas.Parse
import Verif.Spec.Kinds
/-! Helper lemmas: types of decoded values. -/
namespace Arinc
open Py Spec
variable [PyUnicode]

/-- if it is a value, it is text -/
def IsText (r : Except Exc PyVal) : Prop := ∀ x, r = .ok x → ∃ s, x = .str s

omit [PyUnicode] in
theorem isText_ret (s : Str) : IsText (ret s) := by
  intro x h; cases h; exact ⟨s, rfl⟩
omit [PyUnicode] in
theorem isText_str (s : Str) : IsText (.ok (.str s)) := by
  intro x h; cases h; exact ⟨s, rfl⟩
omit [PyUnicode] in
theorem isText_error (e : Exc) : IsText (.error e) := by
  intro x h; cases h
omit [PyUnicode] in
theorem isText_bind {α : Type} (r : Except Exc α) (f : α → Except Exc PyVal) (h : ∀ a, IsText (f a)) :
    IsText (r >>= f) := by
  cases r with
  | error e => exact isText_error e
  | ok a => exact h a

macro "text_tac" : tactic => `(tactic|
  repeat' first
    | exact isText_ret _
    | exact isText_str _
    | exact isText_error _
    | (refine isText_bind _ _ (fun a => ?_))
    | split
    | dsimp only)

theorem runDec_text (fn : DecFn) (v : Str) (rec : RecInfo) (legs : Legs)
    (h : fn ∉ [DecFn.f009, .f062, .f065, .f135, .f269]) : IsText (runDec fn v rec legs).res := by
  cases fn
  case f009 => simp at h
  case f062 => simp at h
  case f065 => simp at h
  case f135 => simp at h
  case f269 => simp at h
  case ident n =>
    simp only [runDec]
    split
    · exact isText_ret _
    · exact isText_error _
  all_goals
    simp only [runDec, quiet, noisy]
    simp only [field_002, field_003, field_004, field_007, field_008, field_010, field_012, field_016, field_017,
      field_020, field_021, field_022, field_023, field_024, field_025, field_026, field_027, field_029, field_030,
      field_032, field_034, field_039, field_042, field_043, field_045, field_048, field_049, field_050, field_053,
      field_054, field_072, field_073, field_082, field_086, field_091, field_092, field_101, field_102, field_103,
      field_104, field_106, field_108, field_112, field_113, field_117, field_118, field_123, field_127, field_147,
      field_161, field_165, field_177, field_178, field_179, field_181, field_182, field_184, field_196, field_198,
      field_199, field_209, field_240, field_270, feet, dictCase]
    text_tac

/-! blank values -/

omit [PyUnicode] in
theorem blank_widths : registry.all (fun p => p.2.layouts.all fun l => l.all fun s =>
    (decide (1 ≤ s.slice.columns.length)) &&
    (!decide (s.dec ∈ [DecFn.f020, .f182, .f270]) || decide (s.slice.columns.length = 1)) &&
    (!decide (s.dec = .f082) || decide (s.slice.columns.length = 2)) &&
    (!decide (s.dec = .f002) || decide (s.slice = .at 0)) &&
    (!decide (s.dec = .f032) || decide (s.slice = .range 128 132)) &&
    (!decide (s.dec ∈ [DecFn.f008, .f108]) ||
      decide (p.1 ∈ [py!"ER", py!"ET", py!"EU", py!"TG", py!"PA", py!"HA"]))) = true := by
  decide +kernel

omit [PyUnicode] in
theorem blanks_space {v : Str} (h : Blanks v) : AllSpace v := by
  intro c hc; rw [h.2 c hc]; rfl

omit [PyUnicode] in
theorem blanks_cons {v : Str} (h : Blanks v) : ∃ s, v = 32 :: s ∧ ∀ c ∈ s, c = 32 := by
  obtain ⟨h1, h2⟩ := h
  cases v with
  | nil => exact absurd rfl h1
  | cons c s =>
    rw [h2 c (by simp)]
    exact ⟨s, rfl, fun d hd => h2 d (by simp [hd])⟩

theorem blanks_not_numeric {v : Str} (h : Blanks v) : isNumeric v = false := by
  obtain ⟨s, rfl, _⟩ := blanks_cons h
  have : PyUnicode.numeric 32 = false := by rw [PyUnicode.numeric_ascii 32 (by omega)]; rfl
  simp [isNumeric, this]

theorem pyInt_blanks {v : Str} (h : ∀ c ∈ v, c = 32) : ¬ IsInt v := by
  rintro ⟨i, hi⟩
  replace hi := pyInt_iff.2 hi
  have h1 : v.map toAscii = v := by
    conv => rhs; rw [← List.map_id v]
    exact List.map_congr_left (fun c hc => by rw [h c hc]; rfl)
  have h2 : cStrip v = [] := by
    unfold cStrip
    have : v.dropWhile cSpace = [] := by
      have := dropWhile_all (p := cSpace) (a := v) (b := []) (by intro c hc; rw [h c hc]; rfl)
      simpa using this
    rw [this]; rfl
  unfold pyInt at hi
  simp only [h1, h2] at hi
  cases hi

theorem blank_domain {fn : DecFn} {v : Str} (hb : Blanks v)
    (h1 : fn ∈ [DecFn.f020, .f182, .f270] → v.length = 1) (h2 : fn = .f082 → v.length = 2) :
    InDomain fn v ↔ fn ∉ [DecFn.f002, .f008, .f032, .f108] := by
  have hs := blanks_space hb
  obtain ⟨s, rfl, hs'⟩ := blanks_cons hb
  have one : (32 :: s).length = 1 → 32 :: s = py!" " := by
    intro h; cases s with
    | nil => rfl
    | cons => simp at h
  have hn := blanks_not_numeric hb
  cases fn <;> simp only [InDomain, List.mem_cons, List.not_mem_nil, or_false, reduceCtorEq, not_false_eq_true,
    or_self, iff_true, not_true_eq_false, iff_false, hs, true_or, hn, Bool.false_eq_true, false_implies]
  case f002 => simp
  case f008 =>
    rw [strip_nil_iff.2 hs]; simp [isAlnum]
  case f020 => right; right; right; exact one (h1 (by simp))
  case f032 =>
    have : ¬ IsInt (List.take 2 (32 :: s)) := pyInt_blanks (fun c hc => hb.2 c (List.mem_of_mem_take hc))
    simp only [this, or_true, not_true_eq_false]
  case f072 => simp
  case f082 =>
    right
    have := h2 rfl
    match s, this with
    | [c], _ => rw [hs' c (by simp)]; simp [col]
  case f108 => simp
  case f178 =>
    intro h
    have : PyUnicode.alpha 32 = false := by rw [PyUnicode.alpha_ascii 32 (by omega)]; rfl
    simp [col, isAlpha, this] at h
  case f182 => right; right; exact one (h1 (by simp))
  case f270 => right; right; right; right; exact one (h1 (by simp))

/-- what the layouts say about a field of an accepted record -/
theorem field_facts {r : Record} {line : Str} (h : (r.read line).res = .ok true) {f : Field}
    (hf : f ∈ (r.read line).obj.fields) :
    ∃ s : FieldSpec, f = FieldSpec.field line s ∧ f.value.length = s.slice.columns.length ∧
      1 ≤ f.value.length ∧ (f.dec ∈ [DecFn.f020, .f182, .f270] → f.value.length = 1) ∧
      (f.dec = .f082 → f.value.length = 2) ∧ (f.dec = .f002 → s.slice = .at 0) ∧
      (f.dec = .f032 → s.slice = .range 128 132) ∧
      (f.dec ∈ [DecFn.f008, .f108] →
        (r.read line).obj.ident ∈ [py!"ER", py!"ET", py!"EU", py!"TG", py!"PA", py!"HA"]) := by
  obtain ⟨k, d, l, ha⟩ := accepted h
  obtain ⟨s, hs, rfl, h1, h2⟩ := accepted_width ha hf
  have hb := List.all_eq_true.1 (List.all_eq_true.1 (List.all_eq_true.1 blank_widths _ (lookup_mem ha.lookup))
    l ha.mem) s hs
  simp only [Bool.and_eq_true, Bool.or_eq_true, Bool.not_eq_true', decide_eq_false_iff_not,
    decide_eq_true_eq] at hb
  obtain ⟨⟨⟨⟨⟨b1, b2⟩, b3⟩, b4⟩, b5⟩, b6⟩ := hb
  rw [← h1] at b2 b3 b4 b5 b6
  rw [← h2] at b1 b2 b3
  rw [accepted_ident ha]
  exact ⟨s, rfl, h2, b1, fun h => b2.resolve_left (not_not_intro h), fun h => b3.resolve_left (not_not_intro h),
    fun h => b4.resolve_left (not_not_intro h), fun h => b5.resolve_left (not_not_intro h),
    fun h => b6.resolve_left (not_not_intro h)⟩

end Arinc
