import Verif.Spec.Hidden
import Verif.Props.Reach
/-!
# C103: what is shown of a record tells which record it is
-/
namespace Arinc
open Py Spec Spec.Std

/-! ### The table of gaps -/

/-- a set of columns as the bits of a number -/
def mask (cs : List Nat) : Nat := cs.foldl (fun m c => m ||| 2 ^ c) 0

theorem mask_bit (cs : List Nat) (i : Nat) : (mask cs).testBit i = decide (i ∈ cs) := by
  have h : ∀ (cs : List Nat) (m : Nat), (cs.foldl (fun m c => m ||| 2 ^ c) m).testBit i =
      (m.testBit i || decide (i ∈ cs)) := by
    intro cs
    induction cs with
    | nil => intro m; simp
    | cons c cs ih =>
      intro m
      simp only [List.foldl_cons, ih, Nat.testBit_or, Nat.testBit_two_pow, List.mem_cons, Bool.decide_or, Bool.or_assoc]
      rw [show decide (c = i) = decide (i = c) by simp only [eq_comm]]
  rw [mask, h]
  simp

def gapCols (g : Gaps) : List Nat := g.flatMap fun p => List.range' (p.1 - 1) (p.2 + 1 - p.1)

def shownCols (fs : List StdField) : List Nat := fs.flatMap fun f => (usedOf f).1

/-- every column is in a gap or shown, and not both -/
def fits (fs : List StdField) (g : Gaps) : Bool :=
  g.all (fun p => decide (1 ≤ p.1)) && mask (shownCols fs) ^^^ mask (gapCols g) == 2 ^ 132 - 1

theorem fits_iff {fs : List StdField} {g : Gaps} (h : fits fs g = true) {i : Nat} (hi : i < 132) :
    i ∈ shownCols fs ↔ ¬ ∃ p ∈ g, p.1 ≤ i + 1 ∧ i + 1 ≤ p.2 := by
  simp only [fits, Bool.and_eq_true, List.all_eq_true, decide_eq_true_eq, beq_iff_eq] at h
  have hb := congrArg (fun n => n.testBit i) h.2
  simp only [Nat.testBit_xor, mask_bit, Nat.testBit_two_pow_sub_one, hi, decide_true] at hb
  have hg : i ∈ gapCols g ↔ ∃ p ∈ g, p.1 ≤ i + 1 ∧ i + 1 ≤ p.2 := by
    simp only [gapCols, List.mem_flatMap, List.mem_range'_1]
    constructor
    · rintro ⟨p, hp, h1, h2⟩
      have := h.1 p hp
      exact ⟨p, hp, by omega, by omega⟩
    · rintro ⟨p, hp, h1, h2⟩
      have := h.1 p hp
      exact ⟨p, hp, by omega, by omega⟩
  rw [← hg]
  by_cases h1 : i ∈ shownCols fs <;> by_cases h2 : i ∈ gapCols g <;> simp [h1, h2] at hb ⊢

def fitsCases : List (Str × List StdField) → List (Str × Gaps) → Bool
  | [], [] => true
  | x :: xs, y :: ys => x.1 == y.1 && fits x.2 y.2 && fitsCases xs ys
  | _, _ => false

def fitsOther : Option (List StdField) → Option Gaps → Bool
  | none, none => true
  | some fs, some g => fits fs g
  | _, _ => false

def fitsAll : List (Str × Bool × List (Str × List StdField) × Option (List StdField)) →
    List (Str × Bool × List (Str × Gaps) × Option Gaps) → Bool
  | [], [] => true
  | e :: es, g :: gs =>
    e.1 == g.1 && e.2.1 == g.2.1 && fitsCases e.2.2.1 g.2.2.1 && fitsOther e.2.2.2 g.2.2.2 && fitsAll es gs
  | _, _ => false

theorem fits_table : fitsAll kindsOf gaps = true := by decide +kernel

theorem fitsCases_lookup : ∀ {xs : List (Str × List StdField)} {ys : List (Str × Gaps)}, fitsCases xs ys = true → ∀ a,
    (∃ fs g, xs.lookup a = some fs ∧ ys.lookup a = some g ∧ fits fs g = true) ∨ (xs.lookup a = none ∧ ys.lookup a = none)
  | [], [], _, a => .inr ⟨rfl, rfl⟩
  | (b, x) :: xs, (c, y) :: ys, h, a => by
    simp only [fitsCases, Bool.and_eq_true, beq_iff_eq] at h
    obtain ⟨⟨rfl, h2⟩, h3⟩ := h
    simp only [List.lookup_cons]
    cases hc : (a == b) with
    | true => exact .inl ⟨_, _, rfl, rfl, h2⟩
    | false => exact fitsCases_lookup h3 a
  | [], _ :: _, h, _ => by cases h
  | _ :: _, [], h, _ => by cases h

theorem fits_kind {k : Str} {p : Bool} {a : Str} (hne : fieldsOf k p a ≠ []) :
    fits (fieldsOf k p a) (gapsOf k p a) = true := by
  have key : ∀ (es : List (Str × Bool × List (Str × List StdField) × Option (List StdField)))
      (gs : List (Str × Bool × List (Str × Gaps) × Option Gaps)), fitsAll es gs = true →
      (es.find? (fun e => e.1 = k && e.2.1 = p) = none ∧ gs.find? (fun e => e.1 = k && e.2.1 = p) = none) ∨
      ∃ e g, es.find? (fun e => e.1 = k && e.2.1 = p) = some e ∧ gs.find? (fun e => e.1 = k && e.2.1 = p) = some g ∧
        fitsCases e.2.2.1 g.2.2.1 = true ∧ fitsOther e.2.2.2 g.2.2.2 = true := by
    intro es
    induction es with
    | nil => intro gs h; cases gs with
      | nil => exact .inl ⟨rfl, rfl⟩
      | cons _ _ => cases h
    | cons e es ih => intro gs h; cases gs with
      | nil => cases h
      | cons g gs =>
        simp only [fitsAll, Bool.and_eq_true, beq_iff_eq] at h
        obtain ⟨⟨⟨⟨h1, h2⟩, h3⟩, h4⟩, h5⟩ := h
        simp only [List.find?_cons, ← h1, ← h2]
        cases hc : (decide (e.1 = k) && decide (e.2.1 = p)) with
        | true => exact .inr ⟨e, g, rfl, rfl, h3, h4⟩
        | false => exact ih gs h5
  unfold fieldsOf at hne ⊢
  unfold gapsOf
  rcases key _ _ fits_table with ⟨h1, h2⟩ | ⟨e, g, h1, h2, h3, h4⟩
  · rw [h1] at hne; exact absurd rfl hne
  · rw [h1] at hne
    simp only [h1, h2] at hne ⊢
    rcases fitsCases_lookup h3 a with ⟨fs, gg, h5, h6, h7⟩ | ⟨h5, h6⟩
    · simp only [h5, h6]; exact h7
    · simp only [h5, h6] at hne ⊢
      cases ho : e.2.2.2 <;> cases hg : g.2.2.2 <;> simp only [ho, hg, fitsOther] at h4 hne ⊢
      · exact absurd rfl hne
      · cases h4
      · cases h4
      · exact h4

/-! ## C103 -/

section
variable [v : PyUnicode]

/-- the application type (restriction type for EU) of the record an object has read -/
abbrev appType (o : Record) (line : Str) : Str := pick line (appColumns o.ident)

theorem fields_cols (r : Record) (line : Str) (h : (r.read line).res = .ok true) :
    (r.read line).obj.fields = (listFor (r.read line).obj line).map
      (fun f => ⟨f.name, pick line (usedOf f).1, (usedOf f).2⟩) ∧ listFor (r.read line).obj line ≠ [] := by
  obtain ⟨d, l, ha, hl, he⟩ := accepted_kind h
  have hne := ha.ne
  rw [hl] at hne he
  exact ⟨he.trans (agree_map (agree_layoutOf hne) line), fun h0 => hne ((agree_nil (agree_layoutOf hne)).2 h0)⟩

omit v in
theorem pick_congr {s t : Str} {cs : List Nat} (h : ∀ i ∈ cs, s[i]? = t[i]?) : pick s cs = pick t cs := by
  induction cs with
  | nil => rfl
  | cons c cs ih =>
    simp only [pick, List.flatMap_cons] at ih ⊢
    rw [ih fun i hi => h i (by simp [hi])]
    simp only [col, h c (by simp)]

omit v in
theorem pick_inj {s t : Str} {cs : List Nat} (hs : ∀ i ∈ cs, i < s.length) (ht : ∀ i ∈ cs, i < t.length)
    (h : pick s cs = pick t cs) : ∀ i ∈ cs, s[i]? = t[i]? := by
  induction cs with
  | nil => intro i hi; cases hi
  | cons c cs ih =>
    have e1 : s[c]? = some (s[c]'(hs c (by simp))) := List.getElem?_eq_getElem _
    have e2 : t[c]? = some (t[c]'(ht c (by simp))) := List.getElem?_eq_getElem _
    simp only [pick, List.flatMap_cons, col, e1, e2, Option.toList_some, List.cons_append, List.nil_append,
      List.cons.injEq] at h
    intro i hi
    rcases List.mem_cons.1 hi with rfl | hi
    · rw [e1, e2, h.1]
    · exact ih (fun i hi => hs i (by simp [hi])) (fun i hi => ht i (by simp [hi])) h.2 i hi

theorem read_length {r : Record} {line : Str} (h : (r.read line).res = .ok true) : 132 ≤ line.length := by
  obtain ⟨d, l, ha, -, -⟩ := accepted_kind h
  rw [← ha.isRec.length]
  exact strip_length_le line

/-- C103: two records of the same kind (section, primary or not, application type) have the same fields exactly
    if they have the same characters in all columns outside the gaps of their kind. -/
theorem C103_iff {r r' : Record} {line line' : Str} (h : (r.read line).res = .ok true)
    (h' : (r'.read line').res = .ok true) (hk : (r'.read line').obj.ident = (r.read line).obj.ident)
    (hp : (r'.read line').obj.primary = (r.read line).obj.primary)
    (ha : appType (r'.read line').obj line' = appType (r.read line).obj line) :
    (r.read line).obj.fields = (r'.read line').obj.fields ↔
    ∀ i, i < 132 → ¬ Hidden (r.read line).obj.ident (r.read line).obj.primary (appType (r.read line).obj line) i →
      line[i]? = line'[i]? := by
  obtain ⟨f1, hne⟩ := fields_cols r line h
  obtain ⟨f2, -⟩ := fields_cols r' line' h'
  have hl : listFor (r'.read line').obj line' = listFor (r.read line).obj line := by
    show fieldsOf _ _ (appType _ _) = fieldsOf _ _ (appType _ _)
    rw [ha, hk, hp]
  rw [hl] at f2
  have hfit := fits_kind hne
  have hlen : 132 ≤ line.length := read_length h
  have hlen' : 132 ≤ line'.length := read_length h'
  have hcols : ∀ f ∈ listFor (r.read line).obj line, ∀ c ∈ (usedOf f).1, c < 132 := by
    intro f hf c hc
    obtain ⟨e, he, fs, hfs, hm⟩ := fieldsOf_mem hf
    have hx : ∃ a, (a, fs) ∈ listsOf e := by
      unfold listsOf
      rcases List.mem_append.1 hfs with hm' | hm'
      · obtain ⟨⟨a, fs'⟩, hm2, rfl⟩ := List.mem_map.1 hm'
        exact ⟨a, List.mem_append_left _ hm2⟩
      · exact ⟨py!"~~", List.mem_append_right _ (List.mem_map.2 ⟨fs, hm', rfl⟩)⟩
    obtain ⟨a, hx⟩ := hx
    have hw := List.all_eq_true.1 (List.all_eq_true.1 (List.all_eq_true.1 columns_in _ he) _ hx) f hm
    simpa using List.all_eq_true.1 hw c hc
  rw [f1, f2]
  constructor
  · intro he i hi hh
    obtain ⟨f, hf, hc⟩ := List.mem_flatMap.1 ((fits_iff hfit hi).2 hh)
    have hv : pick line (usedOf f).1 = pick line' (usedOf f).1 := by
      have := List.map_inj_left.1 he f hf
      simpa using this
    exact pick_inj (fun j hj => Nat.lt_of_lt_of_le (hcols f hf j hj) hlen)
      (fun j hj => Nat.lt_of_lt_of_le (hcols f hf j hj) hlen') hv i hc
  · intro hall
    refine List.map_congr_left fun f hf => ?_
    rw [pick_congr fun i hi => hall i (hcols f hf i hi)
      ((fits_iff hfit (hcols f hf i hi)).1 (List.mem_flatMap.2 ⟨f, hf, hi⟩))]

/-- C103 (partial): so a record can be told by its fields, given its kind and what is in the gaps. Missing: the
    gaps themselves, which are not shown (`C103_refuted`). -/
theorem C103_told_partial {r r' : Record} {line line' : Str} (h : (r.read line).res = .ok true)
    (h' : (r'.read line').res = .ok true) (hk : (r'.read line').obj.ident = (r.read line).obj.ident)
    (hp : (r'.read line').obj.primary = (r.read line).obj.primary)
    (ha : appType (r'.read line').obj line' = appType (r.read line).obj line)
    (hf : (r.read line).obj.fields = (r'.read line').obj.fields)
    (hg : ∀ i, Hidden (r.read line).obj.ident (r.read line).obj.primary (appType (r.read line).obj line) i →
      line[i]? = line'[i]?) (hl : line.length = 132) (hl' : line'.length = 132) : line = line' := by
  refine List.ext_getElem? fun i => ?_
  by_cases hi : i < 132
  · by_cases hh : Hidden (r.read line).obj.ident (r.read line).obj.primary (appType (r.read line).obj line) i
    · exact hg i hh
    · exact (C103_iff h h' hk hp ha).1 hf i hi hh
  · rw [List.getElem?_eq_none (by omega), List.getElem?_eq_none (by omega)]

/-- another line of the kind, which differs from the sample line in a gap -/
def twin (k : Str) (p : Bool) (a : Str) : Bool :=
  let line := Sample.lineOf k p a
  match (gapCols (gapsOf k p (pick line (appColumns k)))).getLast? with
  | none => false
  | some i =>
    let line' := line.set i 33
    let out := @Record.read Py.Tables.cpython311 (reader k p) line'
    classifiesAscii line' && decide (line ≠ line') && decide (out.res = .ok true) && out.obj.ident == k &&
      out.obj.primary == p && pick line (appColumns k) == pick line' (appColumns k)

/-- of the kinds number `i` to `i + 15` -/
def twins16 (i : Nat) : Bool := ((kindsOf.drop i).take 16).all fun e => (listsOf e).all fun x => twin e.1 e.2.1 x.1

omit v in
theorem twins0 : twins16 0 = true := by decide +kernel
omit v in
theorem twins1 : twins16 16 = true := by decide +kernel
omit v in
theorem twins2 : twins16 32 = true := by decide +kernel
omit v in
theorem twins3 : twins16 48 = true := by decide +kernel
omit v in
theorem twins4 : twins16 64 = true := by decide +kernel

omit v in
theorem twins : kindsOf.all (fun e => (listsOf e).all fun x => twin e.1 e.2.1 x.1) = true := by
  have step : ∀ i, twins16 i = true → ((kindsOf.drop (i + 16)).all fun e => (listsOf e).all fun x => twin e.1 e.2.1 x.1) =
      true → ((kindsOf.drop i).all fun e => (listsOf e).all fun x => twin e.1 e.2.1 x.1) = true := by
    intro i h1 h2
    rw [← List.take_append_drop 16 (kindsOf.drop i), List.all_append, List.drop_drop, h2, Bool.and_true]
    exact h1
  have h := step 0 twins0 (step 16 twins1 (step 32 twins2 (step 48 twins3 (step 64 twins4 (by decide +kernel)))))
  exact h

/-- C103 is false of every kind of record: in each, two different records are shown alike. -/
theorem C103_refuted {k : Str} {p : Bool} {apps : List (Str × List StdField)} {other : Option (List StdField)}
    (he : (k, p, apps, other) ∈ kindsOf) {fs : List StdField} (hf : fs ∈ apps.map (·.2) ∨ other = some fs) :
    ∃ (r : Record) (line line' : Str), line ≠ line' ∧ line.length = 132 ∧ line'.length = 132 ∧
      (r.read line).res = .ok true ∧ (r.read line').res = .ok true ∧
      (r.read line).obj.ident = k ∧ (r.read line').obj.ident = k ∧
      (r.read line).obj.primary = p ∧ (r.read line').obj.primary = p ∧
      appType (r.read line).obj line = appType (r.read line').obj line' ∧
      (r.read line).obj.fields = (r.read line').obj.fields := by
  have hx : ∃ a, (a, fs) ∈ listsOf (k, p, apps, other) := by
    unfold listsOf
    rcases hf with hf | hf
    · obtain ⟨⟨a, fs'⟩, hm, rfl⟩ := List.mem_map.1 hf
      exact ⟨a, List.mem_append_left _ hm⟩
    · exact ⟨py!"~~", List.mem_append_right _ (by simp [hf])⟩
  obtain ⟨a, ha⟩ := hx
  obtain ⟨h1, h2, h3, -⟩ := reach_any he ha
  have hc := List.all_eq_true.1 (List.all_eq_true.1 classifies_all _ he) _ ha
  have ht := List.all_eq_true.1 (List.all_eq_true.1 twins _ he) _ ha
  simp only [twin] at ht
  split at ht
  · cases ht
  next i hi =>
  simp only [Bool.and_eq_true, decide_eq_true_eq, beq_iff_eq] at ht
  obtain ⟨⟨⟨⟨⟨t1, t2⟩, t3⟩, t4⟩, t5⟩, t6⟩ := ht
  rw [read_any (u := Py.Tables.cpython311) (v := v) t1] at t3 t4 t5
  have happ : appType ((reader k p).read ((Sample.lineOf k p a).set i 33)).obj ((Sample.lineOf k p a).set i 33) =
      appType ((reader k p).read (Sample.lineOf k p a)).obj (Sample.lineOf k p a) := by
    show pick _ (appColumns _) = pick _ (appColumns _)
    rw [h2, t4]
    exact t6.symm
  refine ⟨reader k p, _, _, t2, by simp [Sample.lineOf], by simp [Sample.lineOf], h1, t3, h2, t4, h3, t5, happ.symm, ?_⟩
  refine (C103_iff h1 t3 (t4.trans h2.symm) (t5.trans h3.symm) happ).2 fun j _ hj => ?_
  by_cases e : i = j
  · subst e
    refine absurd ?_ hj
    obtain ⟨q, hq, hi'⟩ := List.mem_flatMap.1 (List.mem_of_getLast? hi)
    rw [List.mem_range'_1] at hi'
    have hne := (fields_cols _ _ h1).2
    have hfit : fits (fieldsOf k p (pick (Sample.lineOf k p a) (appColumns k)))
        (gapsOf k p (pick (Sample.lineOf k p a) (appColumns k))) = true := by
      have hne' : fieldsOf _ _ (pick _ (appColumns _)) ≠ [] := hne
      rw [h2, h3] at hne'
      exact fits_kind hne'
    simp only [fits, Bool.and_eq_true, List.all_eq_true, decide_eq_true_eq] at hfit
    have := hfit.1 q hq
    show ∃ q ∈ gapsOf _ _ (pick _ (appColumns _)), _
    rw [h2, h3]
    exact ⟨q, hq, by omega, by omega⟩
  · rw [List.getElem?_set_ne e]

end

/-! ## Non-vacuity -/
section
attribute [local instance] Py.Tables.cpython311

/-- two airports that differ in a column that is shown: different fields -/
example : (Record.new.read Sample.airport).res = .ok true ∧
    (Record.new.read (Sample.airport.set 95 88)).res = .ok true ∧
    appType (Record.new.read Sample.airport).obj Sample.airport =
      appType (Record.new.read (Sample.airport.set 95 88)).obj (Sample.airport.set 95 88) ∧
    gapsOf (py!"PA") true [] ≠ [] ∧
    (Record.new.read Sample.airport).obj.fields ≠ (Record.new.read (Sample.airport.set 95 88)).obj.fields := by
  decide +kernel

end
end Arinc
