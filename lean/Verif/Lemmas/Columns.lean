import Verif.Spec.Columns
import Verif.Lemmas.Value
/-! Helper lemmas: checks over the kinds of records. -/
namespace Arinc
open Py Spec

/-- `Q` holds of the layouts of the branch, except exactly those of the kinds listed -/
def kindsOK (ks : List Kind) (k : Str) (p : Bool) (Q : Layout → Bool) : Branch → Bool
  | .always l => (Q l == !ks.contains ⟨k, p, none⟩) &&
      ks.all (fun e => !(e.section_ = k && e.primary = p) || e.app = none)
  | .onApp _ cs o => cs.all (fun c => Q c.2 == !listed ks k p c.1) &&
      (match o with
       | .layout l => (Q l == !ks.contains ⟨k, p, none⟩) &&
          ks.all (fun e => !(e.section_ = k && e.primary = p) || e.app = none ||
            cs.any (fun c => e.app = some c.1))
       | _ => true)

theorem listed_of_none {ks : List Kind} {k : Str} {p : Bool} {a : Str} (P : Kind → Bool)
    (h : ks.all (fun e => !(e.section_ = k && e.primary = p) || e.app = none || P e) = true)
    (hP : ∀ e ∈ ks, e.app = some a → P e = false) :
    listed ks k p a = ks.contains ⟨k, p, none⟩ := by
  rw [Bool.eq_iff_iff]
  unfold listed
  simp only [List.any_eq_true, Bool.and_eq_true, Bool.or_eq_true, decide_eq_true_eq, List.contains_eq_mem]
  constructor
  · rintro ⟨⟨s, q, b⟩, he, ⟨h1, h2⟩, h3⟩
    simp only at h1 h2 h3
    subst h1 h2
    have ha := List.all_eq_true.1 h _ he
    simp only [Bool.or_eq_true, Bool.not_eq_true', Bool.and_eq_false_iff, decide_eq_false_iff_not,
      decide_eq_true_eq] at ha
    rcases ha with (ha | ha) | ha
    · rcases ha with ha | ha <;> exact absurd trivial ha
    · rw [ha] at he; exact he
    · rcases h3 with h3 | h3
      · rw [h3] at he; exact he
      · rw [hP _ he h3] at ha; cases ha
  · intro he
    exact ⟨_, he, ⟨rfl, rfl⟩, .inl rfl⟩

theorem layout_kind {ks : List Kind} {Q : Str → Bool → Layout → Bool}
    (hall : registry.all (fun e => kindsOK ks e.1 true (Q e.1 true) e.2.onPrimary &&
      kindsOK ks e.1 false (Q e.1 false) e.2.onCont) = true)
    {k : Str} {p : Bool} {a : Str} (hne : layoutOf k p a ≠ []) :
    Q k p (layoutOf k p a) = !listed ks k p a := by
  unfold layoutOf at hne ⊢
  cases hd : registry.lookup k with
  | none => rw [hd] at hne; exact absurd rfl hne
  | some d =>
    simp only [hd] at hne ⊢
    have hall := List.all_eq_true.1 hall _ (lookup_mem hd)
    simp only [Bool.and_eq_true] at hall
    have hok : kindsOK ks k p (Q k p) (d.branch p) = true := by
      unfold Definition.branch; cases p
      · exact hall.2
      · exact hall.1
    cases hb : d.branch p with
    | always l' =>
      rw [hb] at hok
      simp only [kindsOK, Bool.and_eq_true, beq_iff_eq] at hok
      rw [listed_of_none (fun _ => false) (by simpa using hok.2) (fun _ _ _ => rfl)]
      exact hok.1
    | onApp sel cs o =>
      rw [hb] at hok hne
      simp only [kindsOK, Bool.and_eq_true, List.all_eq_true, beq_iff_eq] at hok
      cases hc : cs.lookup a with
      | some l' => simp only [hc]; exact hok.1 _ (lookup_mem hc)
      | none =>
        simp only [hc] at hne ⊢
        cases o with
        | empty => exact absurd rfl hne
        | raise => exact absurd rfl hne
        | layout l' =>
          have ho := hok.2
          simp only [Bool.and_eq_true, beq_iff_eq] at ho
          rw [listed_of_none (fun e => cs.any (fun c => e.app = some c.1)) ho.2]
          · exact ho.1
          · intro e _ hea
            rw [Bool.eq_false_iff]
            intro hany
            obtain ⟨c, hc1, hc2⟩ := List.any_eq_true.1 hany
            rw [hea] at hc2
            have : a = c.1 := by simpa using hc2
            exact lookup_none_iff.1 hc (List.mem_map.2 ⟨c, hc1, this.symm⟩)

theorem pick_agree {c : Nat} {l₁ l₂ : Str} (h : AgreeExcept c l₁ l₂) {cs : List Nat} (hc : c ∉ cs) :
    pick l₁ cs = pick l₂ cs := by
  induction cs with
  | nil => rfl
  | cons a cs ih =>
    simp only [List.mem_cons, not_or] at hc
    rw [pick_cons, pick_cons, ih hc.2]
    have : col l₁ a = col l₂ a := by unfold col; rw [h a (fun e => hc.1 e.symm)]
    rw [this]

theorem col_single {t : Str} {c : Nat} (h : c < t.length) : col t c = [t[c]] := by
  simp [col, List.getElem?_eq_getElem h]

theorem pick_differ {c : Nat} {l₁ l₂ : Str} {cs : List Nat} (h₁ : ∀ c ∈ cs, c < l₁.length)
    (h₂ : ∀ c ∈ cs, c < l₂.length) (hc : c ∈ cs) (hd : l₁[c]? ≠ l₂[c]?) : pick l₁ cs ≠ pick l₂ cs := by
  induction cs with
  | nil => cases hc
  | cons a cs ih =>
    intro he
    have a1 := h₁ a (by simp)
    have a2 := h₂ a (by simp)
    rw [pick_cons, pick_cons, col_single a1, col_single a2] at he
    simp only [List.cons_append, List.nil_append, List.cons.injEq] at he
    rcases List.mem_cons.1 hc with rfl | hc
    · exact hd (by rw [List.getElem?_eq_getElem a1, List.getElem?_eq_getElem a2, he.1])
    · exact ih (fun c hc => h₁ c (by simp [hc])) (fun c hc => h₂ c (by simp [hc])) hc he.2

theorem pick_sublist_drop (t : Str) {cs : List Nat} (h : cs.Pairwise (· < ·)) (n : Nat)
    (hn : ∀ c ∈ cs, n ≤ c) : (pick t cs).Sublist (t.drop n) := by
  induction cs generalizing n with
  | nil => exact List.nil_sublist _
  | cons a cs ih =>
    rw [List.pairwise_cons] at h
    rw [pick_cons]
    have h1 := ih h.2 (a + 1) (fun c hc => h.1 c hc)
    have h2 : (t.drop a).Sublist (t.drop n) := by
      have := hn a (by simp)
      have e : t.drop a = (t.drop n).drop (a - n) := by rw [List.drop_drop]; congr 1; omega
      rw [e]; exact List.drop_sublist _ _
    refine List.Sublist.trans ?_ h2
    by_cases ha : a < t.length
    · rw [col_single ha, List.drop_eq_getElem_cons ha]
      exact h1.cons_cons _
    · have : col t a = [] := by simp [col, List.getElem?_eq_none (by omega : t.length ≤ a)]
      rw [this]
      refine List.Sublist.trans h1 ?_
      rw [List.drop_eq_nil_of_le (by omega)]
      exact List.nil_sublist _

theorem pick_sublist (t : Str) {cs : List Nat} (h : cs.Pairwise (· < ·)) : (pick t cs).Sublist t := by
  simpa using pick_sublist_drop t h 0 (fun _ _ => Nat.zero_le _)

theorem pick_flat (t : Str) (css : List (List Nat)) : css.flatMap (pick t) = pick t css.flatten := by
  induction css with
  | nil => rfl
  | cons cs css ih => simp [ih, pick]

/-! the checks -/

def sectionColumns (k : Str) : List Nat :=
  if k.head? = some 80 ∨ k.head? = some 72 then [4, 12] else [4, 5]

def sectionQ (k : Str) (_ : Bool) (l : Layout) : Bool :=
  ((l.find? (fun s => s.name = py!"Section Code")).map (·.slice.columns)) == some (sectionColumns k)

theorem sectionQ_ok : registry.all (fun e => kindsOK sectionMisplaced e.1 true (sectionQ e.1 true) e.2.onPrimary &&
    kindsOK sectionMisplaced e.1 false (sectionQ e.1 false) e.2.onCont) = true := by decide +kernel

def contQ (k : Str) (_ : Bool) (l : Layout) : Bool :=
  match contColumn k with
  | none => true
  | some i => l.any (fun s => contNames.contains s.name) &&
      l.all (fun s => !contNames.contains s.name || (s.slice.columns == [i] && s.dec == .f016))

theorem contQ_ok : registry.all (fun e => kindsOK contMisplaced e.1 true (contQ e.1 true) e.2.onPrimary &&
    kindsOK contMisplaced e.1 false (contQ e.1 false) e.2.onCont) = true := by decide +kernel

def appQ (k : Str) (_ : Bool) (l : Layout) : Bool :=
  l.all (fun s => s.name != py!"Application Type" || (s.slice.columns == appColumns k && s.dec == .f091))

theorem appQ_ok : registry.all (fun e => kindsOK appMisplaced e.1 true (appQ e.1 true) e.2.onPrimary &&
    kindsOK appMisplaced e.1 false (appQ e.1 false) e.2.onCont) = true := by decide +kernel

def keySpecs (l : Layout) : Layout := l.takeWhile (fun s => !contNames.contains s.name)

def keysQ (k : Str) (p : Bool) (l : Layout) : Bool :=
  p || (contColumn k).isNone || match registry.lookup k with
    | none => true
    | some d => d.onPrimary.layouts.all (fun lp => (keySpecs l).all (fun s => lp.contains s))

theorem keysQ_ok : registry.all (fun e => kindsOK keysDiffer e.1 true (keysQ e.1 true) e.2.onPrimary &&
    kindsOK keysDiffer e.1 false (keysQ e.1 false) e.2.onCont) = true := by decide +kernel

def disjointQ : Layout → Bool
  | [] => true
  | s :: l => l.all (fun t => t.slice.columns.all (fun c => !s.slice.columns.contains c)) && disjointQ l

theorem disjointQ_ok : registry.all (fun e => kindsOK overlapping e.1 true disjointQ e.2.onPrimary &&
    kindsOK overlapping e.1 false disjointQ e.2.onCont) = true := by decide +kernel

def increasing : List Nat → Bool
  | a :: b :: l => decide (a < b) && increasing (b :: l)
  | _ => true

def orderQ (l : Layout) : Bool :=
  increasing ((l.filter (fun s => s.name != py!"Section Code")).map (·.slice.columns)).flatten

theorem orderQ_ok : registry.all (fun e => kindsOK overlapping e.1 true orderQ e.2.onPrimary &&
    kindsOK overlapping e.1 false orderQ e.2.onCont) = true := by decide +kernel

/-- number of a field type -/
def DecFn.num : DecFn → Nat
  | .ident n => n
  | .f002 => 2
  | .f003 => 3
  | .f004 => 4
  | .f007 => 7
  | .f008 => 8
  | .f009 => 9
  | .f010 => 10
  | .f012 => 12
  | .f016 => 16
  | .f017 => 17
  | .f020 => 20
  | .f021 => 21
  | .f022 => 22
  | .f023 => 23
  | .f024 => 24
  | .f025 => 25
  | .f026 => 26
  | .f027 => 27
  | .f029 => 29
  | .f030 => 30
  | .f032 => 32
  | .f034 => 34
  | .f039 => 39
  | .f042 => 42
  | .f043 => 43
  | .f045 => 45
  | .f048 => 48
  | .f049 => 49
  | .f050 => 50
  | .f053 => 53
  | .f054 => 54
  | .f062 => 62
  | .f065 => 65
  | .f072 => 72
  | .f073 => 73
  | .f082 => 82
  | .f086 => 86
  | .f091 => 91
  | .f092 => 92
  | .f101 => 101
  | .f102 => 102
  | .f103 => 103
  | .f104 => 104
  | .f106 => 106
  | .f108 => 108
  | .f112 => 112
  | .f113 => 113
  | .f117 => 117
  | .f118 => 118
  | .f123 => 123
  | .f127 => 127
  | .f135 => 135
  | .f147 => 147
  | .f161 => 161
  | .f165 => 165
  | .f177 => 177
  | .f178 => 178
  | .f179 => 179
  | .f181 => 181
  | .f182 => 182
  | .f184 => 184
  | .f196 => 196
  | .f198 => 198
  | .f199 => 199
  | .f209 => 209
  | .f240 => 240
  | .f269 => 269
  | .f270 => 270

/-- widths by number of the field type, in rows of 16; 0 for the types with no width or more than one -/
def widths : List (List Nat) :=
  [[0, 0, 1, 3, 0, 0, 4, 1, 0, 6, 6, 5, 0, 5, 0, 0],
   [0, 4, 1, 1, 1, 2, 1, 4, 4, 4, 4, 4, 4, 0, 5, 5],
   [4, 4, 5, 0, 0, 0, 4, 5, 5, 4, 3, 25, 4, 5, 5, 4],
   [4, 1, 4, 4, 3, 5, 3, 5, 5, 5, 4, 22, 25, 0, 4, 1],
   [3, 2, 5, 0, 5, 4, 4, 30, 3, 5, 5, 5, 10, 3, 6, 4],
   [1, 1, 2, 5, 0, 0, 0, 0, 0, 0, 2, 1, 5, 0, 0, 1],
   [3, 5, 1, 3, 4, 3, 1, 7, 1, 0, 3, 3, 1, 3, 4, 4],
   [1, 1, 2, 1, 0, 1, 2, 4, 0, 0, 1, 1, 1, 25, 30, 5],
   [1, 10, 1, 1, 0, 0, 2, 4, 5, 5, 1, 0, 24, 3, 4, 3],
   [0, 2, 6, 3, 0, 1, 3, 4, 1, 0, 3, 0, 0, 7, 0, 0],
   [1, 3, 0, 69, 1, 1, 3, 4, 3, 3, 4, 4, 3, 4, 1, 3],
   [6, 1, 3, 1, 5, 1, 1, 6, 5, 4, 60, 1, 2, 25, 4, 0],
   [0, 0, 5, 10, 3, 3, 1, 1, 4, 2, 1, 1, 6, 1, 1, 2],
   [0, 6, 1, 0, 5, 1, 5, 1, 30, 1, 2, 29, 2, 2, 1, 2],
   [1, 6, 4, 6, 5, 8, 1, 3, 4, 1, 1, 1, 7, 15, 2, 1],
   [3, 1, 0, 4, 5, 2, 2, 3, 5, 1, 2, 3, 1, 10, 3, 2],
   [2, 4, 1, 4, 4, 1, 10, 3, 3, 6, 1, 11, 12, 3, 1, 4],
   [1, 5, 4, 10, 1]]

def widthOf (n : Nat) : Option Nat := widths[n / 16]?.bind (fun row => row[n % 16]?)

theorem widths_ok : registry.all (fun e => e.2.layouts.all (fun l => l.all (fun s =>
    widthOf s.dec.num == some s.slice.columns.length || mixedWidth.contains s.dec))) = true := by
  decide +kernel

theorem increasing_pairwise {l : List Nat} (h : increasing l = true) : l.Pairwise (· < ·) := by
  induction l with
  | nil => exact List.Pairwise.nil
  | cons a l ih =>
    cases l with
    | nil => exact List.pairwise_singleton _ _
    | cons b l =>
      simp only [increasing, Bool.and_eq_true, decide_eq_true_eq] at h
      have hp := ih h.2
      rw [List.pairwise_cons]
      refine ⟨fun c hc => ?_, hp⟩
      rcases List.mem_cons.1 hc with rfl | hc
      · exact h.1
      · exact Nat.lt_trans h.1 ((List.pairwise_cons.1 hp).1 c hc)

theorem disjoint_of {l : Layout} (h : disjointQ l = true) {i j : Nat} (hij : i < j) {s t : FieldSpec}
    (hi : l[i]? = some s) (hj : l[j]? = some t) {c : Nat} (hc : c ∈ s.slice.columns) :
    c ∉ t.slice.columns := by
  induction l generalizing i j with
  | nil => simp at hi
  | cons x l ih =>
    simp only [disjointQ, Bool.and_eq_true] at h
    cases j with
    | zero => omega
    | succ j =>
      simp only [List.getElem?_cons_succ] at hj
      cases i with
      | zero =>
        simp only [List.getElem?_cons_zero, Option.some.injEq] at hi
        subst hi
        intro ht
        have h1 := List.all_eq_true.1 h.1 t (List.mem_of_getElem? hj)
        have h2 := List.all_eq_true.1 h1 c ht
        simp only [Bool.not_eq_true', List.contains_eq_mem, decide_eq_false_iff_not] at h2
        exact h2 hc
      | succ i =>
        simp only [List.getElem?_cons_succ] at hi
        exact ih h.2 (by omega) hi hj

theorem overlap_of {l : Layout} (h : disjointQ l = false) : ∃ (i j : Nat) (s t : FieldSpec) (c : Nat), i < j ∧ l[i]? = some s ∧
    l[j]? = some t ∧ c ∈ s.slice.columns ∧ c ∈ t.slice.columns := by
  induction l with
  | nil => cases h
  | cons x l ih =>
    simp only [disjointQ, Bool.and_eq_false_iff] at h
    rcases h with h | h
    · obtain ⟨t, ht, h⟩ := List.all_eq_false.1 h
      have h : (t.slice.columns.all fun c => !x.slice.columns.contains c) = false := by simpa using h
      obtain ⟨c, hc, h⟩ := List.all_eq_false.1 h
      obtain ⟨j, hj⟩ := List.getElem?_of_mem ht
      refine ⟨0, j + 1, x, t, c, by omega, rfl, by simpa using hj, ?_, hc⟩
      simpa using h
    · obtain ⟨i, j, s, t, c, h1, h2, h3, h4, h5⟩ := ih h
      exact ⟨i + 1, j + 1, s, t, c, by omega, by simpa using h2, by simpa using h3, h4, h5⟩

section
variable [PyUnicode]

/-- the layout of an accepted record, by its observable kind -/
theorem accepted_kind {r : Record} {line : Str} (h : (r.read line).res = .ok true) :
    ∃ d l, Accepted r line (r.read line).obj.ident d l ∧
      l = layoutOf (r.read line).obj.ident (r.read line).obj.primary
        (pick line (appColumns (r.read line).obj.ident)) ∧
      (r.read line).obj.fields = l.map (FieldSpec.field line) := by
  obtain ⟨k, d, l, ha⟩ := accepted h
  have hid := accepted_ident ha
  have hpr : (r.read line).obj.primary = (r.enter line k d).primary := by rw [ha.read]; rfl
  refine ⟨d, l, ?_, ?_, accepted_fields ha⟩
  · rw [hid]; exact ha
  · rw [hid, hpr]; exact select_layoutOf ha.lookup ha.select

theorem accepted_Q {ks : List Kind} {Q : Str → Bool → Layout → Bool}
    (hall : registry.all (fun e => kindsOK ks e.1 true (Q e.1 true) e.2.onPrimary &&
      kindsOK ks e.1 false (Q e.1 false) e.2.onCont) = true)
    {r : Record} {line : Str} (h : (r.read line).res = .ok true) :
    ∃ d l, Accepted r line (r.read line).obj.ident d l ∧
      (r.read line).obj.fields = l.map (FieldSpec.field line) ∧
      Q (r.read line).obj.ident (r.read line).obj.primary l =
        !listed ks (r.read line).obj.ident (r.read line).obj.primary
          (pick line (appColumns (r.read line).obj.ident)) := by
  obtain ⟨d, l, ha, hl, hf⟩ := accepted_kind h
  refine ⟨d, l, ha, hf, ?_⟩
  have hne := ha.ne
  rw [hl] at hne
  conv => lhs; rw [hl]
  exact layout_kind hall hne

end
section
variable [PyUnicode]

omit [PyUnicode] in
theorem shown_map {line : Str} (l : Layout) (name : Str) :
    shown (l.map (FieldSpec.field line)) name =
      ((l.find? (fun s => s.name = name)).map (·.slice.columns)).map (pick line) := by
  unfold shown
  induction l with
  | nil => rfl
  | cons s l ih =>
    rw [List.map_cons, List.find?_cons, List.find?_cons]
    by_cases h : s.name = name
    · have : decide ((FieldSpec.field line s).name = name) = true := decide_eq_true h
      rw [this, decide_eq_true h]; rfl
    · have : decide ((FieldSpec.field line s).name = name) = false := decide_eq_false h
      rw [this, decide_eq_false h]; exact ih

omit [PyUnicode] in
theorem pick_pair (t : Str) (i j : Nat) : pick t [i, j] = col t i ++ col t j := by
  simp [pick]

omit [PyUnicode] in
theorem keyFields_map (l : Layout) (line : Str) :
    keyFields (l.map (FieldSpec.field line)) = (keySpecs l).map (FieldSpec.field line) := by
  unfold keyFields keySpecs
  rw [List.takeWhile_map]
  congr 1
  apply congrArg (fun p => l.takeWhile p)
  funext s
  show decide (s.name ∉ contNames) = _
  rw [List.contains_eq_mem]
  by_cases hc : s.name ∈ contNames <;> simp [hc]

theorem primary_mem {r : Record} {line k : Str} {d : Definition} {m : Layout}
    (ha : Accepted r line k d m) (p : (r.read line).obj.primary = true) : m ∈ d.onPrimary.layouts := by
  have hs := ha.select
  have hpr2 : (r.read line).obj.primary = (r.enter line k d).primary := by
    conv => lhs; rw [ha.read]
    rfl
  rw [← hpr2, p] at hs
  rcases select_mem hs with hm | hm
  · exact hm
  · exact absurd hm ha.ne

theorem cont_mem {r : Record} {line k : Str} {d : Definition} {m : Layout}
    (ha : Accepted r line k d m) (p : (r.read line).obj.primary = false) : m ∈ d.onCont.layouts := by
  have hs := ha.select
  have hpr2 : (r.read line).obj.primary = (r.enter line k d).primary := by
    conv => lhs; rw [ha.read]
    rfl
  rw [← hpr2, p] at hs
  rcases select_mem hs with hm | hm
  · exact hm
  · exact absurd hm ha.ne

/-- the same question as `keysQ`, by name and columns -/
def keysR (k : Str) (p : Bool) (l : Layout) : Bool :=
  p || match registry.lookup k with
    | none => true
    | some d => !(d.onPrimary.layouts.all (fun lp => (keySpecs l).any (fun s => lp.all (fun t =>
        t.name != s.name || t.slice.columns != s.slice.columns))))

omit [PyUnicode] in
theorem keysR_ok : registry.all (fun e => kindsOK keysDiffer e.1 true (keysR e.1 true) e.2.onPrimary &&
    kindsOK keysDiffer e.1 false (keysR e.1 false) e.2.onCont) = true := by decide +kernel

end
end Arinc
