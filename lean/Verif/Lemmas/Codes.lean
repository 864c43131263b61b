import Verif.Spec.Codes
import Verif.Lemmas.Value
/-! Helper lemmas: code tables. -/
namespace Arinc
open Py Spec

theorem lookup_cons_ite {α : Type} (v a : Str) (b : α) (l : List (Str × α)) :
    ((a, b) :: l).lookup v = if v = a then some b else l.lookup v := by
  rw [List.lookup_cons]
  by_cases h : v = a
  · subst h; simp
  · rw [if_neg h]
    have : (v == a) = false := by simpa using h
    rw [this]

theorem lookup_of_mem {α : Type} {l : List (Str × α)} {v : Str} {d : α}
    (hn : (l.map Prod.fst).Nodup) (h : (v, d) ∈ l) : l.lookup v = some d := by
  induction l with
  | nil => cases h
  | cons p l ih =>
    obtain ⟨a, b⟩ := p
    rw [lookup_cons_ite]
    simp only [List.map_cons, List.nodup_cons] at hn
    rcases List.mem_cons.1 h with h | h
    · cases h; rw [if_pos rfl]
    · have : v ≠ a := fun e => hn.1 (e ▸ List.mem_map.2 ⟨_, h, rfl⟩)
      rw [if_neg this]
      exact ih hn.2 h

/-- codes are listed once, and show something -/
def tableOK (l : List (Str × Str)) : Bool :=
  decide ((l.map Prod.fst).Nodup) &&
    l.all (fun p => p.2 != py!"bad value" && p.2 != py!"<UNKNOWN>" && p.2 != [])

/-- every code has a character that is visible in ASCII -/
def visible (l : List (Str × Str)) : Bool := l.all (fun p => p.1.any (fun c => 33 ≤ c && c ≤ 126))

theorem tables_ok : codeFields.all (fun t => tableOK t.codes) = true := by decide +kernel

theorem tables_visible : codeFields.all (fun t => !t.blank || visible t.codes) = true := by decide +kernel

theorem nodup_of_tableOK {l : List (Str × Str)} (h : tableOK l = true) : (l.map Prod.fst).Nodup := by
  simp only [tableOK, Bool.and_eq_true, decide_eq_true_eq] at h
  exact h.1

theorem descr_of_tableOK {l : List (Str × Str)} (h : tableOK l = true) {p : Str × Str} (hp : p ∈ l) :
    p.2 ≠ py!"bad value" ∧ p.2 ≠ py!"<UNKNOWN>" ∧ p.2 ≠ [] := by
  simp only [tableOK, Bool.and_eq_true, List.all_eq_true, bne_iff_ne] at h
  have := h.2 p hp
  exact ⟨this.1.1, this.1.2, this.2⟩

theorem t003_eq : t003 = areaCodes := by decide +kernel
theorem t004_eq : t004 = sectionCodes := by decide +kernel
theorem t091_eq : t091 = applicationTypes := by decide +kernel
theorem t101_eq : t101 = communicationTypes := by decide +kernel
theorem t104_eq : t104 = frequencyUnits := by decide +kernel
theorem t106_eq : t106 = serviceIndicators := by decide +kernel
theorem t181_eq : t181 = h24Indicators := by decide +kernel
theorem t198_eq : t198 = modulations := by decide +kernel
theorem t199_eq : t199 = signalEmissions := by decide +kernel
theorem t017_0_eq : t017_0 = waypointDescription1 := by decide +kernel
theorem t017_1_eq : t017_1 = waypointDescription2 := by decide +kernel
theorem t017_2_eq : t017_2 = waypointDescription3 := by decide +kernel
theorem t017_3_eq : t017_3 = waypointDescription4 := by decide +kernel
theorem t042_0_eq : t042_0 = waypointTypes1 := by decide +kernel
theorem t042_1_eq : t042_1 = waypointTypes2 := by decide +kernel
theorem t196_0_eq : t196_0 = nameFormats1 := by decide +kernel
theorem t196_1_eq : t196_1 = nameFormats2 := by decide +kernel
theorem legTypeDesc_eq : legTypeDesc = pathTerminators := by decide +kernel
theorem routeTypes_eq (k : Str) : routeTypes k = routeTypesOf k := by
  unfold routeTypes routeTypesOf
  have e1 : t007_1 = airwayRouteTypes := by decide +kernel
  have e2 : t007_2 = preferredRouteTypes := by decide +kernel
  have e3 : t007_3 = sidRouteTypes := by decide +kernel
  have e4 : t007_4 = starRouteTypes := by decide +kernel
  have e5 : t007_5 = approachRouteTypes := by decide +kernel
  rw [e1, e2, e3, e4, e5]
  simp only [List.mem_cons, List.not_mem_nil, or_false]

/-- what is returned for a value that is not documented -/
def otherwiseRes (v : Str) : Otherwise → Except Exc PyVal
  | .text s => ret s
  | .prefixed s => ret (s ++ v)
  | .same => ret v
  | .unsupported => ret (py!"Unsupported Value: \"" ++ v ++ py!"\"")
  | .raises => .error .valueError

variable [PyUnicode]

/-- the function a `CodeField` describes -/
def codeRes (t : CodeField) (v : Str) : Except Exc PyVal :=
  if t.blank = true ∧ strip v = [] then ret v
  else match t.codes.lookup v with
    | some d => ret d
    | none => otherwiseRes v t.otherwise

def Computes (t : CodeField) : Prop := ∀ v rec legs, runDec t.fn v rec legs = quiet legs (codeRes t v)

omit [PyUnicode] in
theorem res_plain {fn : DecFn} {codes : List (Str × Str)} {o : Otherwise} (v : Str) :
    codeRes ⟨fn, codes, false, o⟩ v = (match codes.lookup v with
      | some d => ret d
      | none => otherwiseRes v o) := by
  unfold codeRes
  rw [if_neg (by simp)]

omit [PyUnicode] in
theorem dict_eq {codes : List (Str × Str)} (h : tableOK codes = true) (v : Str) :
    dictCase codes v = (match codes.lookup v with
      | some d => ret d
      | none => otherwiseRes v (.text (py!"<UNKNOWN>"))) := by
  unfold dictCase lookupD
  cases hl : codes.lookup v with
  | none => rfl
  | some d => simp only; rw [if_pos (descr_of_tableOK h (lookup_mem hl)).1]

theorem computes_dict {fn : DecFn} {codes : List (Str × Str)} (h : tableOK codes = true)
    (hr : ∀ v rec legs, runDec fn v rec legs = quiet legs (dictCase codes v)) :
    Computes ⟨fn, codes, false, .text (py!"<UNKNOWN>")⟩ := by
  intro v rec legs
  rw [hr, res_plain, dict_eq h]

theorem computes_ifs2 {fn : DecFn} {a b x y : Str} {o : Otherwise}
    (hr : ∀ v rec legs, runDec fn v rec legs =
      quiet legs (if v = a then ret x else if v = b then ret y else otherwiseRes v o)) :
    Computes ⟨fn, [(a, x), (b, y)], false, o⟩ := by
  intro v rec legs
  rw [hr, res_plain]
  simp only [lookup_cons_ite, List.lookup_nil]
  repeat' split
  all_goals first | rfl | (next h => cases h; done) | simp_all

theorem computes_ifs3 {fn : DecFn} {a b c x y z : Str} {o : Otherwise}
    (hr : ∀ v rec legs, runDec fn v rec legs =
      quiet legs (if v = a then ret x else if v = b then ret y else if v = c then ret z
        else otherwiseRes v o)) :
    Computes ⟨fn, [(a, x), (b, y), (c, z)], false, o⟩ := by
  intro v rec legs
  rw [hr, res_plain]
  simp only [lookup_cons_ite, List.lookup_nil]
  by_cases h1 : v = a
  · simp [h1]
  · by_cases h2 : v = b
    · subst h2; simp [h1]
    · by_cases h3 : v = c
      · subst h3; simp [h1, h2]
      · simp [h1, h2, h3]

theorem computes_all : ∀ t ∈ codeFields, Computes t := by
  refine List.forall_mem_cons.2 ⟨computes_ifs2 (fun _ _ _ => rfl), ?_⟩
  refine List.forall_mem_cons.2 ⟨?_, ?_⟩
  · intro v rec legs
    rw [res_plain, ← t003_eq]; rfl
  refine List.forall_mem_cons.2 ⟨?_, ?_⟩
  · intro v rec legs
    show quiet legs (field_004 v) = _
    congr 1
    unfold field_004 codeRes lookupD
    rw [← t004_eq]
    simp only [true_and]
    split
    · rfl
    · cases t004.lookup v <;> rfl
  refine List.forall_mem_cons.2 ⟨?_, ?_⟩
  · intro v rec legs
    show quiet legs (field_020 v) = _
    congr 1
    rw [res_plain]
    unfold field_020
    simp only [lookup_cons_ite, List.lookup_nil]
    by_cases h1 : v = py!"R"
    · rw [if_pos h1, if_pos h1]
    · rw [if_neg h1, if_neg h1]
      by_cases h2 : v = py!"L"
      · rw [if_pos h2, if_pos h2]
      · rw [if_neg h2, if_neg h2]
        by_cases h3 : v = py!"E"
        · rw [if_pos (.inl h3), if_pos h3]
        · by_cases h4 : v = py!" "
          · rw [if_pos (.inr h4), if_neg h3, if_pos h4]
          · rw [if_neg (by simp [h3, h4]), if_neg h3, if_neg h4]; rfl
  refine List.forall_mem_cons.2 ⟨computes_ifs3 (fun _ _ _ => rfl), ?_⟩
  refine List.forall_mem_cons.2 ⟨?_, ?_⟩
  · intro v rec legs
    rw [res_plain, ← t091_eq]; rfl
  refine List.forall_mem_cons.2 ⟨computes_dict (by decide +kernel) (fun _ _ _ => by rw [← t101_eq]; rfl), ?_⟩
  refine List.forall_mem_cons.2 ⟨computes_ifs2 (fun _ _ _ => rfl), ?_⟩
  refine List.forall_mem_cons.2 ⟨computes_dict (by decide +kernel) (fun _ _ _ => by rw [← t104_eq]; rfl), ?_⟩
  refine List.forall_mem_cons.2 ⟨?_, ?_⟩
  · intro v rec legs
    show quiet legs (field_106 v) = _
    congr 1
    unfold field_106 codeRes lookupD
    rw [← t106_eq]
    simp only [true_and]
    split
    · rfl
    · cases t106.lookup v <;> rfl
  refine List.forall_mem_cons.2 ⟨computes_ifs2 (fun _ _ _ => rfl), ?_⟩
  refine List.forall_mem_cons.2 ⟨computes_ifs2 (fun _ _ _ => rfl), ?_⟩
  refine List.forall_mem_cons.2 ⟨computes_ifs2 (fun _ _ _ => rfl), ?_⟩
  refine List.forall_mem_cons.2 ⟨computes_ifs3 (fun _ _ _ => rfl), ?_⟩
  refine List.forall_mem_cons.2 ⟨computes_ifs2 (fun _ _ _ => rfl), ?_⟩
  refine List.forall_mem_cons.2 ⟨computes_ifs3 (fun _ _ _ => rfl), ?_⟩
  refine List.forall_mem_cons.2 ⟨computes_ifs2 (fun _ _ _ => rfl), ?_⟩
  refine List.forall_mem_cons.2 ⟨computes_dict (by decide +kernel) (fun _ _ _ => by rw [← t181_eq]; rfl), ?_⟩
  refine List.forall_mem_cons.2 ⟨computes_ifs3 (fun _ _ _ => rfl), ?_⟩
  refine List.forall_mem_cons.2 ⟨computes_dict (by decide +kernel) (fun _ _ _ => by rw [← t198_eq]; rfl), ?_⟩
  refine List.forall_mem_cons.2 ⟨?_, ?_⟩
  · intro v rec legs
    show quiet legs (field_199 v) = _
    congr 1
    unfold field_199 codeRes
    rw [t199_eq, dict_eq (by decide +kernel)]
    simp only [true_and]
  refine List.forall_mem_cons.2 ⟨?_, ?_⟩
  · intro v rec legs
    show quiet legs (field_270 v) = _
    congr 1
    rw [res_plain]
    unfold field_270
    simp only [lookup_cons_ite, List.lookup_nil]
    repeat (first | (split; · rfl))
    by_cases h : v = py!" "
    · rw [if_pos h, if_pos h, h]
    · rw [if_neg h, if_neg h]; rfl
  · intro t ht; cases ht

omit [PyUnicode] in
theorem strip_visible {l : List (Str × Str)} (h : visible l = true) {p : Str × Str} (hp : p ∈ l) :
    ¬ AllSpace p.1 := by
  intro ha
  have := List.all_eq_true.1 h p hp
  obtain ⟨c, hc, hv⟩ := List.any_eq_true.1 this
  simp only [Bool.and_eq_true, decide_eq_true_eq] at hv
  have hs := ha c hc
  unfold isSpace at hs
  simp at hs
  omega

omit [PyUnicode] in
theorem described_some {codes : List (Str × Str)} (hn : (codes.map Prod.fst).Nodup) {c : Nat} {d : Str}
    (h : codes.lookup [c] = some d) : described codes c = [d] := by
  unfold described
  induction codes with
  | nil => cases h
  | cons p l ih =>
    obtain ⟨a, b⟩ := p
    rw [lookup_cons_ite] at h
    simp only [List.map_cons, List.nodup_cons] at hn
    by_cases ha : [c] = a
    · rw [if_pos ha] at h
      cases h
      have hl : l.filter (fun p => decide (p.1 = [c])) = [] := by
        rw [List.filter_eq_nil_iff]
        intro q hq hq2
        exact hn.1 (List.mem_map.2 ⟨q, hq, by rw [of_decide_eq_true hq2, ha]⟩)
      rw [List.filter_cons_of_pos (by simp [ha]), hl]
      rfl
    · rw [if_neg ha] at h
      rw [List.filter_cons_of_neg (by simpa using fun e => ha e.symm)]
      exact ih hn.2 h

omit [PyUnicode] in
theorem described_none {codes : List (Str × Str)} {c : Nat} (h : codes.lookup [c] = none) :
    described codes c = [] := by
  unfold described
  have : codes.filter (fun p => decide (p.1 = [c])) = [] := by
    rw [List.filter_eq_nil_iff]
    intro q hq hq2
    exact lookup_none_iff.1 h (List.mem_map.2 ⟨q, hq, of_decide_eq_true hq2⟩)
  rw [this]; rfl

omit [PyUnicode] in
theorem writeCase_eq {codes : List (Str × Str)} (hn : (codes.map Prod.fst).Nodup) (c : Nat) :
    writeCase codes [c] = (described codes c).flatMap (· ++ [10]) := by
  unfold writeCase
  cases h : codes.lookup [c] with
  | none => rw [described_none h]; rfl
  | some d => rw [described_some hn h]; simp

/-- the first and last characters are not whitespace -/
def trim (s : Str) : Bool :=
  match s.head?, s.getLast? with
  | some a, some b => !isSpace a && !isSpace b
  | _, _ => false

omit [PyUnicode] in
theorem flat_lines (ts : List Str) : ts ≠ [] → ts.flatMap (· ++ [10]) = lines ts ++ [10] := by
  induction ts with
  | nil => intro h; exact absurd rfl h
  | cons t ts ih =>
    intro _
    cases ts with
    | nil => simp [lines]
    | cons u us =>
      have e := ih (by simp)
      rw [List.flatMap_cons, e]
      simp [lines, List.intercalate_cons_cons]

omit [PyUnicode] in
theorem lines_ends {ts : List Str} (h : ∀ t ∈ ts, trim t = true) :
    (∀ c, (lines ts).head? = some c → isSpace c = false) ∧
    (∀ c, (lines ts).getLast? = some c → isSpace c = false) := by
  have ht : ∀ t, trim t = true → ∃ a b, t.head? = some a ∧ t.getLast? = some b ∧ isSpace a = false ∧
      isSpace b = false := by
    intro t h
    unfold trim at h
    cases h1 : t.head? with
    | none => rw [h1] at h; cases h
    | some a =>
      cases h2 : t.getLast? with
      | none => rw [h1, h2] at h; cases h
      | some b => rw [h1, h2] at h; simp at h; exact ⟨a, b, rfl, rfl, h.1, h.2⟩
  induction ts with
  | nil => exact ⟨fun c hc => by simp [lines] at hc, fun c hc => by simp [lines] at hc⟩
  | cons t ts ih =>
    obtain ⟨a, b, e1, e2, s1, s2⟩ := ht t (h t (by simp))
    cases ts with
    | nil =>
      simp only [lines, List.intercalate_singleton, e1, e2, Option.some.injEq]
      exact ⟨fun c hc => hc ▸ s1, fun c hc => hc ▸ s2⟩
    | cons u us =>
      have ih := ih (fun t ht => h t (by simp [ht]))
      have e : lines (t :: u :: us) = t ++ ([10] ++ lines (u :: us)) := by
        simp [lines, List.intercalate_cons_cons]
      have hne : lines (u :: us) ≠ [] := by
        obtain ⟨a', _, e1', _⟩ := ht u (h u (by simp))
        cases us with
        | nil => intro h0; simp only [lines, List.intercalate_singleton] at h0; rw [h0] at e1'; cases e1'
        | cons w ws => simp [lines, List.intercalate_cons_cons]
      rw [e]
      constructor
      · intro c hc
        rw [List.head?_append, e1] at hc
        cases hc; exact s1
      · intro c hc
        rw [← List.append_assoc, List.getLast?_append] at hc
        cases hg : (lines (u :: us)).getLast? with
        | none => exact absurd (List.getLast?_eq_none_iff.1 hg) hne
        | some x => rw [hg] at hc; cases hc; exact ih.2 _ hg

omit [PyUnicode] in
theorem strip_lines {ts : List Str} (h : ∀ t ∈ ts, trim t = true) :
    strip (ts.flatMap (· ++ [10])) = lines ts := by
  by_cases h0 : ts = []
  · subst h0; rfl
  · rw [flat_lines ts h0, strip_append_space (by intro c hc; simp at hc; subst hc; decide)]
    have := lines_ends h
    exact strip_of_padded ⟨[], [], by simp, nofun, nofun⟩ this.1 this.2

end Arinc
