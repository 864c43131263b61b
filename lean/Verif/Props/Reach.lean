import Verif.Props.Standard
import Verif.Props.Columns
import Verif.Lemmas.Agree
/-!
# C73: every kind of record can be read; refutations of C62 and C63

The lists of fields are those of `Spec/Standard.lean`.
-/
namespace Arinc
open Py Spec Spec.Std

/-- the lists of a section, each with an application type that selects it -/
def listsOf (e : Str × Bool × List (Str × List StdField) × Option (List StdField)) :
    List (Str × List StdField) :=
  e.2.2.1 ++ e.2.2.2.toList.map (fun l => (py!"~~", l))

/-- the characters of a line that `Record.read` classifies are ASCII -/
def classifiesAscii (line : Str) : Bool :=
  let kind (k : Str) : Bool := (registry.lookup k).all fun d => d.contIdx.all fun i =>
    match index (strip line) i with
    | .ok c => c.all (· < 128)
    | .error _ => true
  (lastN (strip line) 9).all (· < 128) && kind (slice line 4 6) && ((registry.lookup (slice line 4 6)).isSome ||
    match (Slice.pair 4 12).eval line with
    | .ok k => kind k
    | .error _ => true)

theorem ascii_over {u v : PyUnicode} {s : Str} (h : s.all (· < 128) = true) : Over (SameClass u v) s := by
  intro c hc
  have := List.all_eq_true.1 h c hc
  exact sameClass_ascii (by simpa using this)

/-- Every interpreter reads such a line in the same way. -/
theorem read_any {u v : PyUnicode} {line : Str} (h : classifiesAscii line = true) (r : Record) :
    @Record.read u r line = @Record.read v r line := by
  simp only [classifiesAscii, Bool.and_eq_true] at h
  obtain ⟨⟨h1, h2⟩, h3⟩ := h
  have hk : ∀ k, ((registry.lookup k).all fun d => d.contIdx.all fun i =>
      match index (strip line) i with
      | .ok c => c.all (· < 128)
      | .error _ => true) = true →
      @Record.readDefinition u { { r with raw := strip line } with ident := k } line =
      @Record.readDefinition v { { r with raw := strip line } with ident := k } line := by
    intro k hk
    unfold Record.readDefinition
    simp only
    split
    · rfl
    · next d hd =>
      rw [hd] at hk
      unfold Record.readWith
      simp only
      split
      · next i hi =>
        simp only [Option.all_some, hi] at hk
        split
        · rfl
        · next c hc =>
          rw [hc] at hk
          rw [agree_isAlnum (ascii_over hk)]
      · rfl
  unfold Record.read validate
  simp only
  rw [agree_isNumeric (u := u) (v := v) (ascii_over h1), hk _ h2]
  cases hp : (Slice.pair 4 12).eval line with
  | error e => rfl
  | ok k =>
    simp only
    rw [hp] at h3
    cases hn : inRegistry (slice line 4 6) with
    | true => rfl
    | false =>
      rw [show (registry.lookup (slice line 4 6)).isSome = false from hn, Bool.false_or] at h3
      rw [hk _ h3]

section
attribute [local instance] Py.Tables.cpython311

/-- an object that has read a primary record, if the section leaves `primary` as it was, else a new one -/
def reader (k : Str) (primary : Bool) : Record :=
  if contColumn k = none ∧ primary = true then (Record.new.read Sample.airport).obj else Record.new

def reaches (k : Str) (p : Bool) (a : Str) (fs : List StdField) : Bool :=
  let line := Sample.lineOf k p a
  let out := (reader k p).read line
  decide (out.res = .ok true) && out.obj.ident == k && out.obj.primary == p && decide (listFor out.obj line = fs)

theorem columns_in : kindsOf.all (fun e => (listsOf e).all (fun x => x.2.all (fun f =>
    (usedOf f).1.all (fun c => decide (c < 132))))) = true := by decide +kernel

theorem reaches_all : kindsOf.all (fun e => (listsOf e).all (fun x => reaches e.1 e.2.1 x.1 x.2)) = true := by
  decide +kernel

theorem classifies_all : kindsOf.all (fun e => (listsOf e).all (fun x =>
    classifiesAscii (Sample.lineOf e.1 e.2.1 x.1))) = true := by decide +kernel

theorem classifies_airport : classifiesAscii Sample.airport = true := by decide +kernel

theorem airport_read : (Record.new.read Sample.airport).res = .ok true := by decide +kernel

theorem overlapping_all : overlapping.all (fun x =>
    let line := Sample.lineOf x.section_ x.primary (x.app.getD (py!"A"))
    let out := (reader x.section_ x.primary).read line
    classifiesAscii line &&
    decide (out.res = .ok true) && out.obj.ident == x.section_ && out.obj.primary == x.primary &&
    x.app.all (fun a => pick line (appColumns x.section_) == a) &&
    !((out.obj.fields.filter (fun f => f.name ≠ py!"Section Code")).flatMap (·.value)).isSublist line) =
    true := by decide +kernel

end

section
variable [v : PyUnicode]

/-- what holds for the tables of CPython 3.11 holds for those of every interpreter -/
theorem reach_any {e : Str × Bool × List (Str × List StdField) × Option (List StdField)} (he : e ∈ kindsOf)
    {x : Str × List StdField} (hx : x ∈ listsOf e) :
    ((reader e.1 e.2.1).read (Sample.lineOf e.1 e.2.1 x.1)).res = .ok true ∧
    ((reader e.1 e.2.1).read (Sample.lineOf e.1 e.2.1 x.1)).obj.ident = e.1 ∧
    ((reader e.1 e.2.1).read (Sample.lineOf e.1 e.2.1 x.1)).obj.primary = e.2.1 ∧
    listFor ((reader e.1 e.2.1).read (Sample.lineOf e.1 e.2.1 x.1)).obj (Sample.lineOf e.1 e.2.1 x.1) = x.2 := by
  have hr := List.all_eq_true.1 (List.all_eq_true.1 reaches_all _ he) _ hx
  have hc := List.all_eq_true.1 (List.all_eq_true.1 classifies_all _ he) _ hx
  simp only [reaches, Bool.and_eq_true, decide_eq_true_eq, beq_iff_eq] at hr
  rw [read_any (u := v) (v := Py.Tables.cpython311) hc]
  exact ⟨hr.1.1.1, hr.1.1.2, hr.1.2, hr.2⟩

theorem reader_any (k : Str) (p : Bool) : reader k p = Record.new ∨
    ∃ before, (Record.new.read before).res = .ok true ∧ reader k p = (Record.new.read before).obj := by
  have h := read_any (u := v) (v := Py.Tables.cpython311) classifies_airport Record.new
  unfold reader
  split
  · exact .inr ⟨Sample.airport, by rw [h]; exact airport_read, by rw [h]⟩
  · exact .inl rfl

/-! ## C73 -/

/-- C73: every list of fields of `Spec/Standard.lean` is that of an accepted record of its section: an
    object that is new, or has read one other record, reads some line as a record of that kind. -/
theorem C73_reachable {k : Str} {p : Bool} {apps : List (Str × List StdField)} {other : Option (List StdField)}
    (he : (k, p, apps, other) ∈ kindsOf) {fs : List StdField} (hf : fs ∈ apps.map (·.2) ∨ other = some fs) :
    ∃ (r : Record) (line : Str), (r = Record.new ∨ ∃ before, (Record.new.read before).res = .ok true ∧
        r = (Record.new.read before).obj) ∧
      (r.read line).res = .ok true ∧ (r.read line).obj.ident = k ∧ (r.read line).obj.primary = p ∧
      listFor (r.read line).obj line = fs := by
  have hx : ∃ a, (a, fs) ∈ listsOf (k, p, apps, other) := by
    unfold listsOf
    rcases hf with hf | hf
    · obtain ⟨⟨a, fs'⟩, hm, rfl⟩ := List.mem_map.1 hf
      exact ⟨a, List.mem_append_left _ hm⟩
    · exact ⟨py!"~~", List.mem_append_right _ (by simp [hf])⟩
  obtain ⟨a, ha⟩ := hx
  obtain ⟨h1, h2, h3, h4⟩ := reach_any he ha
  exact ⟨reader k p, Sample.lineOf k p a, reader_any k p, h1, h2, h3, h4⟩

/-- C73: primary records and continuation records of every section with a continuation column are read
    by a new object. -/
theorem C73_fresh {k : Str} {p : Bool} {apps : List (Str × List StdField)} {other : Option (List StdField)}
    (he : (k, p, apps, other) ∈ kindsOf) (hk : contColumn k ≠ none) {fs : List StdField}
    (hf : fs ∈ apps.map (·.2) ∨ other = some fs) :
    ∃ line, (Record.new.read line).res = .ok true ∧ (Record.new.read line).obj.ident = k ∧
      (Record.new.read line).obj.primary = p ∧ listFor (Record.new.read line).obj line = fs := by
  have hx : ∃ a, (a, fs) ∈ listsOf (k, p, apps, other) := by
    unfold listsOf
    rcases hf with hf | hf
    · obtain ⟨⟨a, fs'⟩, hm, rfl⟩ := List.mem_map.1 hf
      exact ⟨a, List.mem_append_left _ hm⟩
    · exact ⟨py!"~~", List.mem_append_right _ (by simp [hf])⟩
  obtain ⟨a, ha⟩ := hx
  obtain ⟨h1, h2, h3, h4⟩ := reach_any he ha
  have hn : reader k p = Record.new := if_neg (fun h => hk h.1)
  simp only [hn] at h1 h2 h3 h4
  exact ⟨Sample.lineOf k p a, h1, h2, h3, h4⟩

/-! ## Refutations -/

/-- two fields of the type with different widths among the lists -/
def twoWidths (fn : DecFn) : Bool :=
  kindsOf.any (fun e₁ => (listsOf e₁).any (fun x₁ => x₁.2.any (fun f₁ => (usedOf f₁).2 = fn &&
    kindsOf.any (fun e₂ => (listsOf e₂).any (fun x₂ => x₂.2.any (fun f₂ => (usedOf f₂).2 = fn &&
      (usedOf f₁).1.length != (usedOf f₂).1.length))))))

omit v in
theorem mixed_two : mixedWidth.all twoWidths = true := by decide +kernel

/-- some accepted record has a field of that type and width -/
theorem field_of_list {e : Str × Bool × List (Str × List StdField) × Option (List StdField)}
    (he : e ∈ kindsOf) {x : Str × List StdField} (hx : x ∈ listsOf e) {f : StdField} (hf : f ∈ x.2) :
    ∃ (r : Record) (line : Str) (g : Field), (r.read line).res = .ok true ∧ g ∈ (r.read line).obj.fields ∧
      g.dec = (usedOf f).2 ∧ g.value.length = (usedOf f).1.length := by
  obtain ⟨h, -, -, hl⟩ := reach_any he hx
  obtain ⟨d, l, ha, hlo, he'⟩ := accepted_kind h
  have hne := ha.ne
  rw [hlo] at hne
  have hm := agree_map (agree_layoutOf hne) (Sample.lineOf e.1 e.2.1 x.1)
  rw [← hlo, ← he'] at hm
  have hg : (⟨f.name, pick (Sample.lineOf e.1 e.2.1 x.1) (usedOf f).1, (usedOf f).2⟩ : Field) ∈
      ((reader e.1 e.2.1).read (Sample.lineOf e.1 e.2.1 x.1)).obj.fields := by
    rw [hm]
    exact List.mem_map.2 ⟨f, by rw [← hl] at hf; exact hf, rfl⟩
  refine ⟨_, _, _, h, hg, rfl, ?_⟩
  have hw := List.all_eq_true.1 (List.all_eq_true.1 (List.all_eq_true.1 columns_in _ he) _ hx) f hf
  have hlen : (Sample.lineOf e.1 e.2.1 x.1).length = 132 := by simp [Sample.lineOf]
  exact pick_length (fun c hc => by
    have := List.all_eq_true.1 hw c hc
    simp only [decide_eq_true_eq] at this
    omega)

/-- C62 is false of each of the types in `mixedWidth`. -/
theorem C62_refuted {fn : DecFn} (h : fn ∈ mixedWidth) : ∃ (r₁ : Record) (l₁ : Str) (r₂ : Record) (l₂ : Str)
    (f g : Field),
    (r₁.read l₁).res = .ok true ∧ (r₂.read l₂).res = .ok true ∧ f ∈ (r₁.read l₁).obj.fields ∧
    g ∈ (r₂.read l₂).obj.fields ∧ f.dec = fn ∧ g.dec = fn ∧ f.value.length ≠ g.value.length := by
  have := List.all_eq_true.1 mixed_two _ h
  simp only [twoWidths, List.any_eq_true, Bool.and_eq_true, decide_eq_true_eq, bne_iff_ne] at this
  obtain ⟨e₁, he₁, x₁, hx₁, f₁, hf₁, hn₁, e₂, he₂, x₂, hx₂, f₂, hf₂, hn₂, hne⟩ := this
  obtain ⟨r₁, l₁, g₁, a₁, b₁, c₁, d₁⟩ := field_of_list he₁ hx₁ hf₁
  obtain ⟨r₂, l₂, g₂, a₂, b₂, c₂, d₂⟩ := field_of_list he₂ hx₂ hf₂
  exact ⟨r₁, l₁, r₂, l₂, g₁, g₂, a₁, a₂, b₁, b₂, c₁.trans hn₁, c₂.trans hn₂, by rw [d₁, d₂]; exact hne⟩

/-- C63 is false of each of the kinds in `overlapping`. -/
theorem C63_refuted {x : Kind} (h : x ∈ overlapping) : ∃ (r : Record) (line : Str), (r.read line).res = .ok true ∧
    (r.read line).obj.ident = x.section_ ∧ (r.read line).obj.primary = x.primary ∧
    (∀ a, x.app = some a → pick line (appColumns x.section_) = a) ∧
    ¬ (((r.read line).obj.fields.filter (fun f => f.name ≠ py!"Section Code")).flatMap (·.value)).Sublist
      line := by
  have key := List.all_eq_true.1 overlapping_all _ h
  simp only [Bool.and_eq_true, decide_eq_true_eq, beq_iff_eq, Bool.not_eq_true'] at key
  obtain ⟨⟨⟨⟨⟨h0, h1⟩, h2⟩, h3⟩, h4⟩, h5⟩ := key
  have hr := read_any (u := v) (v := Py.Tables.cpython311) h0 (reader x.section_ x.primary)
  rw [← hr] at h1 h2 h3 h5
  refine ⟨_, _, h1, h2, h3, ?_, ?_⟩
  · intro a ha
    rw [ha] at h4
    simpa [ha] using h4
  · intro hs
    rw [← List.isSublist_iff_sublist] at hs
    rw [hs] at h5; cases h5

/-! ## Non-vacuity -/

example : ∃ e ∈ kindsOf, e.1 = py!"UR" ∧ e.2.1 = false ∧ e.2.2.1.length = 3 := by decide +kernel
example : DecFn.ident 36 ∈ mixedWidth ∧ overlapping.length = 15 := by decide +kernel

end
end Arinc
