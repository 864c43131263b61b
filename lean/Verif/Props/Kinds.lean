import Verif.Lemmas.Kinds
import Verif.Props.Decode
import Verif.Props.Samples
/-!
# C65, C70: types of decoded values, blank fields
-/
namespace Arinc
open Py Spec

section
variable [PyUnicode]

/-! ## C65 types of decoded values -/

/-- C65: a field function returns text, except that three may return a number and two no value. -/
theorem C65_types (fn : DecFn) (v : Str) (rec : RecInfo) (legs : Legs) (x : PyVal)
    (h : (runDec fn v rec legs).res = .ok x) :
    (∃ s, x = .str s) ∨ (fn ∈ numberFields ∧ ∃ y, x = .float y) ∨ (fn ∈ noneFields ∧ x = .none) := by
  by_cases hf : fn ∈ [DecFn.f009, .f062, .f065, .f135, .f269]
  · simp only [List.mem_cons, List.not_mem_nil, or_false] at hf
    have num : ∀ (v : Str), (do let y ← pyFloat v; .ok (.float (y.divNat 10)) : Except Exc PyVal) = .ok x →
        ∃ y, x = .float y := by
      intro v h
      cases hp : pyFloat v with
      | error e => rw [hp] at h; cases h
      | ok y => rw [hp] at h; cases h; exact ⟨_, rfl⟩
    rcases hf with rfl | rfl | rfl | rfl | rfl
    · have h : field_009 v = .ok x := h
      unfold field_009 at h
      split at h
      · cases h; exact .inl ⟨_, rfl⟩
      · cases h; exact .inr (.inr ⟨by simp [noneFields], rfl⟩)
    · have h : field_062 v = .ok x := h
      unfold field_062 at h
      split at h
      · exact .inr (.inl ⟨by simp [numberFields], num v h⟩)
      · cases h; exact .inl ⟨_, rfl⟩
    · have h : (field_065 v).1 = .ok x := h
      unfold field_065 at h
      split at h
      · cases h; exact .inr (.inr ⟨by simp [noneFields], rfl⟩)
      · split at h
        · cases h; exact .inl ⟨_, rfl⟩
        · cases h; exact .inl ⟨_, rfl⟩
    · have h : field_135 v = .ok x := h
      unfold field_135 at h
      split at h
      · exact .inr (.inl ⟨by simp [numberFields], num v h⟩)
      · cases h; exact .inl ⟨_, rfl⟩
    · have h : field_269 v = .ok x := h
      unfold field_269 at h
      split at h
      · exact .inr (.inl ⟨by simp [numberFields], num v h⟩)
      · cases h; exact .inl ⟨_, rfl⟩
  · exact .inl (runDec_text fn v rec legs hf x h)

/-- C65: exactly when there is no value: a SID/STAR/approach route identifier that is not alphanumeric, a
    blank leg time. -/
theorem C65_none_iff (fn : DecFn) (v : Str) (rec : RecInfo) (legs : Legs) :
    (runDec fn v rec legs).res = .ok .none ↔
      (fn = .f009 ∧ isAlnum (strip v) = false) ∨ (fn = .f065 ∧ AllSpace v) := by
  constructor
  · intro h
    rcases C65_types fn v rec legs _ h with ⟨s, hs⟩ | ⟨_, y, hy⟩ | ⟨hf, _⟩
    · cases hs
    · cases hy
    · simp only [noneFields, List.mem_cons, List.not_mem_nil, or_false] at hf
      rcases hf with rfl | rfl
      · left
        refine ⟨rfl, ?_⟩
        have h : field_009 v = .ok .none := h
        unfold field_009 at h
        split at h
        · cases h
        · next h0 => simpa using h0
      · right
        refine ⟨rfl, ?_⟩
        have h : (field_065 v).1 = .ok .none := h
        unfold field_065 at h
        split at h
        · next h0 => exact strip_nil_iff.1 h0
        · split at h <;> cases h
  · rintro (⟨rfl, h⟩ | ⟨rfl, h⟩)
    · show field_009 v = _
      unfold field_009
      rw [if_neg (by rw [h]; simp)]
    · show (field_065 v).1 = _
      unfold field_065
      rw [if_pos (strip_nil_iff.2 h)]

/-- C65: exactly when it is a number: `float()` of the text succeeds, and it is numeric text (inbound
    course, helicopter procedure course) or not blank (the third). -/
theorem C65_number_iff (fn : DecFn) (v : Str) (rec : RecInfo) (legs : Legs) :
    (∃ y, (runDec fn v rec legs).res = .ok (.float y)) ↔
      (∃ x, pyFloat v = .ok x) ∧
      ((fn = .f062 ∧ isNumeric v = true) ∨ (fn = .f135 ∧ isNumeric v = true) ∨ (fn = .f269 ∧ ¬ AllSpace v)) := by
  have num : ∀ {y}, (do let y ← pyFloat v; .ok (.float (y.divNat 10)) : Except Exc PyVal) = .ok y →
      ∃ x, pyFloat v = .ok x := by
    intro y h
    cases hp : pyFloat v with
    | error e => rw [hp] at h; cases h
    | ok x => exact ⟨x, rfl⟩
  constructor
  · rintro ⟨y, h⟩
    rcases C65_types fn v rec legs _ h with ⟨s, hs⟩ | ⟨hf, _⟩ | ⟨_, hn⟩
    · cases hs
    · simp only [numberFields, List.mem_cons, List.not_mem_nil, or_false] at hf
      rcases hf with rfl | rfl | rfl
      · have h : field_062 v = .ok (.float y) := h
        unfold field_062 at h
        split at h
        · next h0 => exact ⟨num h, .inl ⟨rfl, h0⟩⟩
        · cases h
      · have h : field_135 v = .ok (.float y) := h
        unfold field_135 at h
        split at h
        · next h0 => exact ⟨num h, .inr (.inl ⟨rfl, h0⟩)⟩
        · cases h
      · have h : field_269 v = .ok (.float y) := h
        unfold field_269 at h
        split at h
        · next h0 => exact ⟨num h, .inr (.inr ⟨rfl, fun ha => h0 (strip_nil_iff.2 ha)⟩)⟩
        · cases h
    · cases hn
  · rintro ⟨⟨x, hx⟩, ⟨rfl, h⟩ | ⟨rfl, h⟩ | ⟨rfl, h⟩⟩
    · refine ⟨x.divNat 10, ?_⟩
      show field_062 v = _
      unfold field_062
      rw [if_pos h, hx]; rfl
    · refine ⟨x.divNat 10, ?_⟩
      show field_135 v = _
      unfold field_135
      rw [if_pos h, hx]; rfl
    · refine ⟨x.divNat 10, ?_⟩
      show field_269 v = _
      unfold field_269
      rw [if_pos (fun h0 => h (strip_nil_iff.1 h0)), hx]; rfl

/-! ## C70 blank fields -/

/-- C70: a field of an accepted record that consists of blanks decodes, unless it is a record type, route
    identifier, cycle date or IFR capability: then it raises `ValueError`. -/
theorem C70_blank (r : Record) (line : Str) (h : (r.read line).res = .ok true) (f : Field)
    (hf : f ∈ (r.read line).obj.fields) (hb : Blanks f.value) (rec : RecInfo) :
    (f.dec ∉ notBlank → ∃ v, (runDec f.dec f.value rec legTypeDesc).res = .ok v) ∧
    (f.dec ∈ notBlank → (runDec f.dec f.value rec legTypeDesc).res = .error .valueError) := by
  obtain ⟨k, d, l, ha⟩ := accepted h
  obtain ⟨s, _, _, _, h1, h2, _⟩ := field_facts h hf
  have hd := blank_domain hb h1 h2
  have hw : widthOK f.dec f.value.length = true := by
    obtain ⟨s, hs, _, h1, h2⟩ := accepted_width ha hf
    rw [h1, h2]
    exact List.all_eq_true.1 (List.all_eq_true.1 (List.all_eq_true.1 width_ok _ (lookup_mem ha.lookup))
      l ha.mem) s hs
  rcases runDec_spec f.dec f.value rec legTypeDesc hw with ⟨h3, x, hx⟩ | ⟨h3, hx⟩
  · refine ⟨fun _ => ⟨x, hx⟩, fun hm => absurd hm (hd.1 h3)⟩
  · refine ⟨fun hm => absurd (hd.2 hm) h3, fun hm => ?_⟩
    rw [hx]
    simp only [notBlank, List.mem_cons, List.not_mem_nil, or_false] at hm
    rcases hm with hm | hm | hm | hm <;> rw [hm] <;> rfl

/-- C70: in a record without blanks in front, neither the record type nor the cycle date is ever blank: only
    the route identifiers of ER, ET, EU and TG and the IFR capability of PA and HA can raise for being
    blank. -/
theorem C70_which (r : Record) (line : Str) (hn : NoLeadingSpace line) (h : (r.read line).res = .ok true)
    (f : Field) (hf : f ∈ (r.read line).obj.fields) (hb : Blanks f.value) (hd : f.dec ∈ notBlank) :
    f.dec ∈ [DecFn.f008, .f108] ∧ (r.read line).obj.ident ∈ notBlankSections := by
  obtain ⟨k, d, l, ha⟩ := accepted h
  obtain ⟨s, rfl, _, _, _, _, h2, h32, h8⟩ := field_facts h hf
  have hm : (FieldSpec.field line s).dec ∈ [DecFn.f008, .f108] := by
    simp only [notBlank, List.mem_cons, List.not_mem_nil, or_false] at hd
    have hrec := ha.isRec
    have hval : ∀ cs : List Nat, s.slice.columns = cs → (∀ c ∈ cs, c < 132) →
        (FieldSpec.field line s).value = pick (strip line) cs := by
      intro cs hcs hlt
      show pick line s.slice.columns = _
      rw [hcs]; exact pick_strip hrec hn hlt
    rcases hd with hd | hd | hd | hd
    · exfalso
      have hv := hval [0] (by rw [h2 hd]; rfl) (by simp)
      rw [hv] at hb
      have hlen := hrec.length
      cases ht : strip line with
      | nil => rw [ht] at hlen; cases hlen
      | cons c t =>
        have := hb.2 c (by rw [ht]; simp [pick, col])
        have h1 := hrec.first
        rw [ht, this] at h1
        simp at h1
    · simp [hd]
    · exfalso
      have hv := hval [128, 129, 130, 131] (by rw [h32 hd]; rfl) (by simp)
      rw [hv] at hb
      have hlen := hrec.length
      have hlt : 128 < (strip line).length := by omega
      have hc : (strip line)[128] ∈ (strip line).drop 123 := by
        rw [List.mem_iff_getElem]
        exact ⟨5, by simp; omega, by simp⟩
      have h1 := PyUnicode.numeric_not_space _ (hrec.tail _ hc)
      have h2 := hb.2 _ (by
        show (strip line)[128] ∈ pick (strip line) [128, 129, 130, 131]
        simp [pick, col, List.getElem?_eq_getElem hlt])
      rw [h2] at h1
      cases h1
    · simp [hd]
  exact ⟨hm, h8 hm⟩

end

section
attribute [local instance] Py.Tables.cpython311

/-- C65: all three kinds occur -/
example : (runDec .f062 (py!"1285") ⟨[], []⟩ legTypeDesc).res.toOption.isSome = true ∧
    (runDec .f065 (py!"  ") ⟨[], []⟩ legTypeDesc).res = .ok .none ∧
    (runDec .f009 (py!"MOUNT1") ⟨[], []⟩ legTypeDesc).res = .ok (.str (py!"MOUNT1")) := by
  refine ⟨?_, ?_, ?_⟩ <;> decide +kernel

/-- C70 (hypotheses are met): an airport with a blank transition altitude ... -/
example : ∃ f ∈ (Record.new.read Sample.airportBlank).obj.fields,
    f.name = py!"Transition Altitude" ∧ f.dec ∉ notBlank ∧ f.value = py!"     " := by
  decide +kernel
/-- ... and a blank IFR capability -/
example : (Record.new.read Sample.airportBlank).res = .ok true ∧ NoLeadingSpace Sample.airportBlank ∧
    ∃ f ∈ (Record.new.read Sample.airportBlank).obj.fields, f.dec = .f108 ∧ f.value = py!" " := by
  refine ⟨by decide +kernel, ?_, by decide +kernel⟩
  intro c hc; cases hc; decide

end
end Arinc
