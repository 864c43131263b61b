import Verif.Lemmas.Process
import Verif.Lemmas.Num
/-! Helper lemmas: `parse`, fields of accepted ASCII records. -/
namespace Arinc
open Py Spec
variable [PyUnicode]

theorem readNew_fieldsOK (line : Str) : FieldsOK (Record.new.read line).obj :=
  read_fieldsOK new_fieldsOK line

/-- a field of the right width decodes iff it is in the domain -/
theorem decoded_ok_iff {rec : RecInfo} {f : Field} (hw : widthOK f.dec f.value.length = true) :
    (∃ v, decoded rec f = .ok v) ↔ InDomain f.dec f.value := by
  rcases runDec_spec f.dec f.value rec legTypeDesc hw with ⟨h1, x, hx⟩ | ⟨h1, hx⟩
  · exact ⟨fun _ => h1, fun _ => ⟨x, hx⟩⟩
  · constructor
    · rintro ⟨v, hv⟩; unfold decoded at hv; rw [hx] at hv; cases hv
    · intro h; exact absurd h h1

theorem decoded_error_iff {rec : RecInfo} {f : Field} {e : Exc}
    (hw : widthOK f.dec f.value.length = true) :
    decoded rec f = .error e ↔ ¬ InDomain f.dec f.value ∧ e = excOf f.dec f.value := by
  rcases runDec_spec f.dec f.value rec legTypeDesc hw with ⟨h1, x, hx⟩ | ⟨h1, hx⟩
  · constructor
    · intro h; unfold decoded at h; rw [hx] at h; cases h
    · intro h; exact absurd h1 h.1
  · unfold decoded
    rw [hx]
    constructor
    · intro h; cases h; exact ⟨h1, rfl⟩
    · rintro ⟨_, rfl⟩; rfl

theorem excOf_exit {fn : DecFn} {v : Str} (h : ¬ InDomain fn v) :
    (excOf fn v = .systemExit ↔ BadFrequency fn v) ∧
    (excOf fn v = .valueError ↔ ¬ BadFrequency fn v) := by
  have key : fn = .f034 ∨ excOf fn v = .valueError := by
    cases fn <;> first | exact .inl rfl | exact .inr rfl
  rcases key with rfl | hv
  · simp only [excOf, BadFrequency, InDomain] at h ⊢
    cases hn : isNumeric (strip v) with
    | false =>
      have : ¬ AllSpace v := fun ha => h (.inl ha)
      simp [this]
    | true => simp
  · rw [hv]
    have : ¬ BadFrequency fn v := by
      rintro ⟨rfl, h1, h2⟩
      simp only [excOf, h2] at hv
      cases hv
    simp [this]

omit [PyUnicode] in
theorem pick_cons (t : Str) (c : Nat) (cs : List Nat) : pick t (c :: cs) = col t c ++ pick t cs := by
  simp [pick]

omit [PyUnicode] in
theorem mem_pick {t : Str} {cs : List Nat} {c : Nat} (h : c ∈ pick t cs) :
    ∃ i ∈ cs, t[i]? = some c := by
  simp only [pick, col, List.mem_flatMap, Option.mem_toList] at h
  exact h

omit [PyUnicode] in
theorem mem_of_mem_pick {t : Str} {cs : List Nat} {c : Nat} (h : c ∈ pick t cs) : c ∈ t := by
  obtain ⟨i, _, hi⟩ := mem_pick h
  exact List.mem_of_getElem? hi

/-- the first column of a record -/
theorem pick_first {t : Str} (h : IsRecord t) : pick t [0] ∈ [py!"S", py!"T"] := by
  have : pick t [0] = t.head?.toList := by simp [pick, col, List.head?_eq_getElem?]
  rw [this]
  rcases h.first with h | h <;> rw [h] <;> decide

/-- the last columns of an ASCII record are digits -/
theorem pick_tail_digits {t : Str} (h : IsRecord t) (ha : ∀ c ∈ t, c < 128) {cs : List Nat}
    (hne : cs ≠ []) (hcs : ∀ i ∈ cs, 123 ≤ i ∧ i < 132) : Digits (pick t cs) := by
  constructor
  · intro h0
    have := pick_length (t := t) (cs := cs) (fun c hc => by rw [h.length]; exact (hcs c hc).2)
    rw [h0] at this
    exact hne (List.length_eq_zero_iff.1 this.symm)
  · intro c hc
    obtain ⟨i, hi, hti⟩ := mem_pick hc
    have hm : c ∈ t.drop 123 := by
      have : (t.drop 123)[i - 123]? = some c := by
        rw [List.getElem?_drop, Nat.add_sub_cancel' (hcs i hi).1]; exact hti
      exact List.mem_of_getElem? this
    have h1 := h.tail c hm
    rw [PyUnicode.numeric_ascii c (ha c (List.mem_of_mem_drop hm))] at h1
    exact h1

/-- field specs whose value is always in the domain, in ASCII records -/
def safeSpec (s : FieldSpec) : Bool :=
  match s.dec with
  | .f002 => decide (s.slice.columns = [0])
  | .f032 => decide (s.slice.columns = [128, 129, 130, 131])
  | .f008 | .f020 | .f021 | .f022 | .f023 | .f024 | .f025 | .f026 | .f027 | .f034 | .f039 | .f072
  | .f082 | .f108 | .f178 | .f182 | .f269 | .f270 => false
  | _ => true

omit [PyUnicode] in
theorem digits_take {s : Str} (h : Digits s) {n : Nat} (hn : 0 < n) : Digits (s.take n) := by
  constructor
  · obtain ⟨c, s', rfl⟩ := List.exists_cons_of_ne_nil h.1
    obtain ⟨m, rfl⟩ : ∃ m, n = m + 1 := ⟨n - 1, by omega⟩
    simp
  · intro c hc; exact h.2 c (List.mem_of_mem_take hc)

theorem safe_inDomain {line : Str} (hrec : IsRecord (strip line)) (hn : NoLeadingSpace line)
    (ha : ∀ c ∈ line, c < 128) {s : FieldSpec} (hs : safeSpec s = true) :
    InDomain s.dec (pick line s.slice.columns) := by
  have hpa : ∀ c ∈ pick line s.slice.columns, c < 128 := fun c hc => ha c (mem_of_mem_pick hc)
  have hsa : ∀ c ∈ strip line, c < 128 := fun c hc => ha c (mem_of_mem_strip hc)
  obtain ⟨nm, sl, dec⟩ := s
  cases dec
  case f002 =>
    simp only [safeSpec, decide_eq_true_eq] at hs
    simp only [hs, InDomain]
    rw [pick_strip hrec hn (by intro c hc; simp at hc; omega)]
    exact pick_first hrec
  case f032 =>
    simp only [safeSpec, decide_eq_true_eq] at hs
    simp only [hs, InDomain]
    rw [pick_strip hrec hn (by intro c hc; simp at hc; omega)]
    have hd := digits_take (n := 2) (pick_tail_digits hrec hsa (cs := [128, 129, 130, 131]) (by simp)
      (by intro i hi; simp at hi; omega)) (by omega)
    exact ⟨_, pyInt_iff.1 (pyInt_digits hd (by rw [List.length_take]; omega))⟩
  case f045 => exact fun hnum => lit_of (pyFloat_digits ((numeric_ascii_digits hpa).1 hnum))
  case f062 => exact fun hnum => lit_of (pyFloat_digits ((numeric_ascii_digits hpa).1 hnum))
  case f103 => exact fun hnum => lit_of (pyFloat_digits ((numeric_ascii_digits hpa).1 hnum))
  case f135 => exact fun hnum => lit_of (pyFloat_digits ((numeric_ascii_digits hpa).1 hnum))
  all_goals first | exact trivial | (simp [safeSpec] at hs)

/-- record of an accepted line: every field comes from a spec of a layout of the section -/
theorem accepted_fields {r : Record} {line k : Str} {d : Definition} {l : Layout}
    (ha : Accepted r line k d l) : (r.read line).obj.fields = l.map (FieldSpec.field line) := by
  rw [ha.read]

theorem accepted_ident {r : Record} {line k : Str} {d : Definition} {l : Layout}
    (ha : Accepted r line k d l) : (r.read line).obj.ident = k := by
  rw [ha.read]; rfl

omit [PyUnicode] in
theorem displayable_safe : registry.all (fun p => !displayable.contains p.1 ||
    p.2.layouts.all fun l => l.all safeSpec) = true := by decide +kernel

omit [PyUnicode] in
theorem freq_specs : registry.all (fun p => p.2.layouts.all fun l => l.all fun s =>
    decide (s.dec = .f034) == false || (s.slice == .range 22 27 &&
      [py!"D ", py!"DB", py!"PM", py!"PN"].contains p.1)) = true := by decide +kernel

theorem parse_cases (line : Str) (output : Bool) (legs : Legs) :
    (∃ e, (Record.new.read line).res = .error e ∧ (parse line output legs).res = .error e ∧
      (parse line output legs).out = (Record.new.read line).out) ∨
    ((Record.new.read line).res = .ok false ∧
      parse line output legs = ⟨.ok false, (Record.new.read line).out, legs⟩) ∨
    ((Record.new.read line).res = .ok true ∧
      (∀ e, ((Record.new.read line).obj.decode output legs).res = .error e ↔
        (parse line output legs).res = .error e) ∧
      ((∃ rows, ((Record.new.read line).obj.decode output legs).res = .ok rows) ↔
        (parse line output legs).res = .ok true) ∧
      (parse line output legs).res ≠ .ok false ∧
      (parse line output legs).out =
        (Record.new.read line).out ++ ((Record.new.read line).obj.decode output legs).out) := by
  unfold parse
  simp only
  cases (Record.new.read line).res with
  | error e => exact .inl ⟨e, rfl, rfl, rfl⟩
  | ok b =>
    cases b with
    | false => exact .inr (.inl ⟨rfl, rfl⟩)
    | true =>
      right; right
      simp only
      cases ((Record.new.read line).obj.decode output legs).res with
      | error e => simp
      | ok rows => simp

end Arinc
