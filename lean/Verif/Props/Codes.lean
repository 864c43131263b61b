import Verif.Lemmas.Codes
import Verif.Lemmas.Process
import Verif.Props.Samples
/-!
# C49, C50, C54 - C56, C61: codes and descriptions

The documented codes are listed in `Spec/Codes.lean`.
-/
namespace Arinc
open Py Spec

section
variable [PyUnicode]

/-! ## C49 code tables -/

/-- C49: a documented code shows its description. -/
theorem C49_documented {t : CodeField} (ht : t ∈ codeFields) {v d : Str} (h : (v, d) ∈ t.codes) :
    Shows t.fn v d := by
  intro rec legs
  rw [computes_all t ht]
  show quiet legs _ = quiet legs (ret d)
  congr 1
  unfold codeRes
  have hn := nodup_of_tableOK (List.all_eq_true.1 tables_ok t ht)
  have hb : ¬ (t.blank = true ∧ strip v = []) := by
    rintro ⟨h1, h2⟩
    have hv := List.all_eq_true.1 tables_visible t ht
    rw [h1] at hv
    exact strip_visible (p := (v, d)) (by simpa using hv) h (strip_nil_iff.1 h2)
  rw [if_neg hb, lookup_of_mem hn h]

/-- C49: blank section codes, service indicators and signal emissions are shown blank. -/
theorem C49_blank {t : CodeField} (ht : t ∈ codeFields) (hb : t.blank = true) {v : Str} (hv : AllSpace v) :
    Shows t.fn v v := by
  intro rec legs
  rw [computes_all t ht]
  show quiet legs _ = quiet legs (ret v)
  congr 1
  unfold codeRes
  rw [if_pos ⟨hb, strip_nil_iff.2 hv⟩]

/-- C49: what any other value shows. -/
theorem C49_otherwise {t : CodeField} (ht : t ∈ codeFields) {v : Str} (h : ∀ d, (v, d) ∉ t.codes)
    (hb : t.blank = true → ¬ AllSpace v) : ShowsOther t.fn v t.otherwise := by
  have key : ∀ rec legs, runDec t.fn v rec legs = quiet legs (otherwiseRes v t.otherwise) := by
    intro rec legs
    rw [computes_all t ht]
    congr 1
    unfold codeRes
    rw [if_neg (fun hc => hb hc.1 (strip_nil_iff.1 hc.2))]
    have hl : t.codes.lookup v = none := by
      cases hl : t.codes.lookup v with
      | none => rfl
      | some d => exact absurd (lookup_mem hl) (h d)
    rw [hl]
  cases ho : t.otherwise <;> rw [ho] at key <;> exact key

omit [PyUnicode] in
/-- C49: no code is listed twice, and no description reads '<UNKNOWN>' or is empty: so the three
    theorems above say which values are shown as documented and which not. -/
theorem C49_tables {t : CodeField} (ht : t ∈ codeFields) : (t.codes.map (·.1)).Nodup ∧
    ∀ p ∈ t.codes, p.2 ≠ py!"<UNKNOWN>" ∧ p.2 ≠ [] :=
  have h := List.all_eq_true.1 tables_ok t ht
  ⟨nodup_of_tableOK h, fun _ hp => (descr_of_tableOK h hp).2⟩

/-- C49: route types are those of the section of the record. -/
theorem C49_route_type (v : Str) (rec : RecInfo) (legs : Legs) :
    (∀ d, (v, d) ∈ routeTypesOf rec.ident → runDec .f007 v rec legs = ⟨.ok (.str d), [], legs⟩) ∧
    ((∀ d, (v, d) ∉ routeTypesOf rec.ident) →
      runDec .f007 v rec legs = ⟨.ok (.str (py!"<UNKNOWN>")), [], legs⟩) := by
  have hok : tableOK (routeTypesOf rec.ident) = true := by
    unfold routeTypesOf
    repeat' split
    all_goals decide +kernel
  have hn := nodup_of_tableOK hok
  have e : runDec .f007 v rec legs = quiet legs (field_007 v rec.ident) := rfl
  constructor
  · intro d hd
    rw [e]
    show _ = quiet legs (ret d)
    congr 1
    unfold field_007 lookupD
    simp only
    rw [routeTypes_eq, lookup_of_mem hn hd]
    simp only
    rw [if_pos (descr_of_tableOK hok hd).1]
  · intro hd
    rw [e]
    show _ = quiet legs (ret (py!"<UNKNOWN>"))
    congr 1
    have hl : (routeTypesOf rec.ident).lookup v = none := by
      cases hl : (routeTypesOf rec.ident).lookup v with
      | none => rfl
      | some d => exact absurd (lookup_mem hl) (hd d)
    unfold field_007 lookupD
    simp only
    rw [routeTypes_eq, hl]
    rfl

/-- C49: path terminators, whatever was decoded before in the process: a documented code (blanks around
    it do not matter) shows its description, a blank nothing, another word '<UNKNOWN>', and anything with
    a character that is not a letter raises. -/
theorem C49_path_terminator (v : Str) (rec : RecInfo) {legs : Legs} (hl : Grown legs) :
    (∀ d, (strip v, d) ∈ pathTerminators → (runDec .f021 v rec legs).res = .ok (.str d)) ∧
    (AllSpace v → (runDec .f021 v rec legs).res = .ok (.str [])) ∧
    (¬ AllSpace v → (∀ d, (strip v, d) ∉ pathTerminators) → isAlpha (strip v) = true →
      (runDec .f021 v rec legs).res = .ok (.str (py!"<UNKNOWN>"))) ∧
    (¬ AllSpace v → isAlpha (strip v) = false → (runDec .f021 v rec legs).res = .error .valueError) := by
  have e : (runDec .f021 v rec legs).res = (field_021 v legTypeDesc).res := (field_021_legs v hl).1
  rw [e]
  have hlen : ∀ s : Str, s.length = 0 ↔ s = [] := fun s => List.length_eq_zero_iff
  refine ⟨?_, ?_, ?_, ?_⟩
  · intro d hd
    have hok : tableOK pathTerminators = true := by decide +kernel
    have ha : pathTerminators.all (fun p => decide (p.1 ≠ []) && p.1.all (fun c => 65 ≤ c && c ≤ 90)) = true := by
      decide +kernel
    have ha := List.all_eq_true.1 ha _ hd
    simp only [Bool.and_eq_true, decide_eq_true_eq, List.all_eq_true] at ha
    have halpha : isAlpha (strip v) = true := by
      unfold isAlpha
      simp only [Bool.and_eq_true, List.all_eq_true]
      refine ⟨by cases hs : strip v with
                 | nil => exact absurd hs ha.1
                 | cons _ _ => rfl, fun c hc => ?_⟩
      have := ha.2 c hc
      rw [PyUnicode.alpha_ascii c (by omega)]
      simp; omega
    unfold field_021
    simp only
    rw [if_neg (by rw [hlen]; exact ha.1), halpha, if_neg (by simp), legTypeDesc_eq,
      lookup_of_mem (nodup_of_tableOK hok) hd]
    rfl
  · intro hv
    unfold field_021
    simp only
    rw [strip_nil_iff.2 hv]
    rfl
  · intro hv hd ha
    unfold field_021
    simp only
    have hl : legTypeDesc.lookup (strip v) = none := by
      rw [legTypeDesc_eq]
      cases hl : pathTerminators.lookup (strip v) with
      | none => rfl
      | some d => exact absurd (lookup_mem hl) (hd d)
    rw [if_neg (by rw [hlen, strip_nil_iff]; exact hv), ha, if_neg (by simp), hl]
    rfl
  · intro hv ha
    unfold field_021
    simp only
    rw [if_neg (by rw [hlen, strip_nil_iff]; exact hv), ha, if_pos (by simp)]

/-! ## C50 section names -/

/-- the section field -/
def sectionField : CodeField := ⟨.f004, sectionCodes, true, .text (py!"<UNKNOWN>")⟩

omit [PyUnicode] in
theorem sectionField_mem : sectionField ∈ codeFields := by
  simp [codeFields, sectionField]

/-- C50: every section that can be read is documented and shown by a description that is not
    '<UNKNOWN>'. -/
theorem C50_named {k : Str} (hk : k ∈ supported) :
    ∃ d, (k, d) ∈ sectionCodes ∧ d ≠ py!"<UNKNOWN>" ∧ Shows .f004 k d := by
  have h : supported.all (fun k => (sectionCodes.map (·.1)).contains k) = true := by decide +kernel
  have := List.all_eq_true.1 h k hk
  simp only [List.contains_eq_mem, decide_eq_true_eq] at this
  obtain ⟨⟨k', d⟩, hp, rfl⟩ := List.mem_map.1 this
  exact ⟨d, hp, ((C49_tables sectionField_mem).2 _ hp).1, C49_documented sectionField_mem hp⟩

/-- C50: two different documented sections never have the same description. -/
theorem C50_distinct {k₁ k₂ d : Str} (h₁ : k₁ ∈ sectionCodes.map (·.1)) (h₂ : k₂ ∈ sectionCodes.map (·.1))
    (s₁ : Shows .f004 k₁ d) (s₂ : Shows .f004 k₂ d) : k₁ = k₂ := by
  have key : ∀ k ∈ sectionCodes.map (·.1), Shows .f004 k d → (k, d) ∈ sectionCodes := by
    intro k hk hs
    obtain ⟨⟨k', d'⟩, hp, rfl⟩ := List.mem_map.1 hk
    have hd := C49_documented sectionField_mem hp
    have e := (hs ⟨[], []⟩ []).symm.trans (hd ⟨[], []⟩ [])
    injection e with e1
    injection e1 with e1
    injection e1 with e1
    rw [e1]; exact hp
  have hn : (sectionCodes.map (·.2)).Nodup := by decide +kernel
  have inj : ∀ (l : List (Str × Str)), (l.map (·.2)).Nodup → (k₁, d) ∈ l → (k₂, d) ∈ l → k₁ = k₂ := by
    intro l
    induction l with
    | nil => intro _ h; cases h
    | cons p l ih =>
      intro hn h1 h2
      simp only [List.map_cons, List.nodup_cons] at hn
      rcases List.mem_cons.1 h1 with h1 | h1 <;> rcases List.mem_cons.1 h2 with h2 | h2
      · exact (Prod.mk.inj (h1.trans h2.symm)).1
      · exact absurd (List.mem_map.2 ⟨_, h2, by rw [← h1]⟩) hn.1
      · exact absurd (List.mem_map.2 ⟨_, h1, by rw [← h2]⟩) hn.1
      · exact ih hn.2 h1 h2
  exact inj _ hn (key _ h₁ s₁) (key _ h₂ s₂)

/-- C50: the section of an accepted record has a name. -/
theorem C50_accepted (r : Record) (line : Str) (h : (r.read line).res = .ok true) :
    ∃ d, d ≠ py!"<UNKNOWN>" ∧ Shows .f004 (r.read line).obj.ident d := by
  obtain ⟨k, d, l, ha⟩ := accepted h
  rw [accepted_ident ha]
  have hk : k ∈ supported := by
    rw [← registry_keys]
    exact List.mem_map.2 ⟨_, lookup_mem ha.lookup, rfl⟩
  obtain ⟨d, _, h1, h2⟩ := C50_named hk
  exact ⟨d, h1, h2⟩

/-! ## C54 fields shown as they are -/

/-- C54: the decoders that do not interpret the value show it, whatever it is. -/
theorem C54_passthrough {n : Nat} (h : n ∈ identityFns) (v : Str) : Shows (.ident n) v v := by
  intro rec legs
  unfold runDec
  simp only
  rw [if_pos (by simpa using h)]
  rfl

/-- C54: in an accepted record every field that is not one of the interpreted ones is shown as it
    stands in the record. -/
theorem C54_records (r : Record) (line : Str) (h : (r.read line).res = .ok true) (f : Field)
    (hf : f ∈ (r.read line).obj.fields) (hi : f.dec ∉ interpreted) : Shows f.dec f.value f.value := by
  obtain ⟨k, d, l, ha⟩ := accepted h
  obtain ⟨s, hs, rfl, he, _⟩ := accepted_width ha hf
  have hw : widthOK s.dec s.slice.columns.length = true := by
    have := List.all_eq_true.1 width_ok _ (lookup_mem ha.lookup)
    exact List.all_eq_true.1 (List.all_eq_true.1 this l ha.mem) s hs
  rw [he] at hi ⊢
  cases hd : s.dec with
  | ident n =>
    rw [hd] at hw
    exact C54_passthrough (by simpa [widthOK] using hw) _
  | _ => rw [hd] at hi; exact absurd (by simp [interpreted]) hi

omit [PyUnicode] in
/-- C54: and the list of interpreted fields is exactly the decoders that are not pass-through. -/
theorem C54_exact (fn : DecFn) : fn ∈ interpreted ↔ ∀ n, fn ≠ .ident n := by
  cases fn <;> simp [interpreted]

/-! ## C55 what decoding depends on -/

/-- C55: the value shown does not depend on the record, except for route types, and there only on the
    section. -/
theorem C55_value (fn : DecFn) (v : Str) (rec rec' : RecInfo) (legs : Legs)
    (h : fn = .f007 → rec.ident = rec'.ident) :
    (runDec fn v rec legs).res = (runDec fn v rec' legs).res ∧
      (runDec fn v rec legs).legs = (runDec fn v rec' legs).legs := by
  have h34 : (field_034 v rec.ident rec.raw).1 = (field_034 v rec'.ident rec'.raw).1 := by
    unfold field_034
    simp only
    repeat' split
    all_goals rfl
  cases fn
  case f007 =>
    have := h rfl
    unfold runDec
    simp only [this]
    exact ⟨trivial, trivial⟩
  case f034 => exact ⟨h34, rfl⟩
  case ident n => exact ⟨rfl, rfl⟩
  all_goals exact ⟨rfl, rfl⟩

/-- C55: what is printed does not depend on the record, except for bad frequencies. -/
theorem C55_output (fn : DecFn) (v : Str) (rec rec' : RecInfo) (legs : Legs) (h : ¬ BadFrequency fn v) :
    (runDec fn v rec legs).out = (runDec fn v rec' legs).out := by
  cases fn
  case f034 =>
    have e : ∀ rec : RecInfo, (field_034 v rec.ident rec.raw).2 = [] := by
      intro rec
      unfold field_034
      simp only
      split
      · next hl =>
        have hs : ¬ AllSpace v := fun hs => by rw [strip_nil_iff.2 hs] at hl; simp at hl
        split
        · next hn => exact absurd ⟨rfl, hs, hn⟩ h
        · rfl
      · rfl
    exact (e rec).trans (e rec').symm
  case ident n => rfl
  all_goals rfl

/-! ## C56 waypoint descriptions -/

omit [PyUnicode] in
theorem described_trim {codes : List (Str × Str)} (h : codes.all (fun p => trim p.2) = true) {c : Nat}
    {t : Str} (ht : t ∈ described codes c) : trim t = true := by
  unfold described at ht
  obtain ⟨p, hp, rfl⟩ := List.mem_map.1 ht
  exact List.all_eq_true.1 h p (List.mem_filter.1 hp).1

/-- C56: a waypoint description shows the descriptions of its four positions, one per line, leaving out
    the positions that are not documented. -/
theorem C56_positions (a b c d : Nat) (rest : Str) :
    Shows .f017 (a :: b :: c :: d :: rest) (lines (described waypointDescription1 a ++
      described waypointDescription2 b ++ described waypointDescription3 c ++
      described waypointDescription4 d)) := by
  intro rec legs
  show quiet legs _ = quiet legs (ret _)
  congr 1
  have n1 : (waypointDescription1.map Prod.fst).Nodup := by decide +kernel
  have n2 : (waypointDescription2.map Prod.fst).Nodup := by decide +kernel
  have n3 : (waypointDescription3.map Prod.fst).Nodup := by decide +kernel
  have n4 : (waypointDescription4.map Prod.fst).Nodup := by decide +kernel
  have t1 : waypointDescription1.all (fun p => trim p.2) = true := by decide +kernel
  have t2 : waypointDescription2.all (fun p => trim p.2) = true := by decide +kernel
  have t3 : waypointDescription3.all (fun p => trim p.2) = true := by decide +kernel
  have t4 : waypointDescription4.all (fun p => trim p.2) = true := by decide +kernel
  have e : field_017 (a :: b :: c :: d :: rest) =
      ret (strip (writeCase t017_0 [a] ++ writeCase t017_1 [b] ++ writeCase t017_2 [c] ++
        writeCase t017_3 [d])) := rfl
  rw [e, t017_0_eq, t017_1_eq, t017_2_eq, t017_3_eq, writeCase_eq n1, writeCase_eq n2, writeCase_eq n3,
    writeCase_eq n4, ← List.flatMap_append, ← List.flatMap_append, ← List.flatMap_append, strip_lines]
  intro t ht
  simp only [List.mem_append] at ht
  rcases ht with ((h | h) | h) | h
  · exact described_trim t1 h
  · exact described_trim t2 h
  · exact described_trim t3 h
  · exact described_trim t4 h

/-! ## C61 codes decoded column by column -/

omit [PyUnicode] in
theorem lookup_of_documented {codes : List (Str × Str)} (hn : tableOK codes = true) {v d : Str}
    (h : (v, d) ∈ codes) : codes.lookup v = some d := lookup_of_mem (nodup_of_tableOK hn) h

omit [PyUnicode] in
theorem lookup_of_undocumented {codes : List (Str × Str)} {v : Str}
    (h : ∀ d, (v, d) ∉ codes) : codes.lookup v = none := by
  cases hl : codes.lookup v with
  | none => rfl
  | some d => exact absurd (lookup_mem hl) (h d)

/-- C61: waypoint types: N in the first column shows the rest of the value after the description; else
    a documented first column decides; else a documented second column; else it is unknown. -/
theorem C61_waypoint_type (a b : Nat) (rest : Str) :
    (a = 78 → Shows .f042 (a :: b :: rest) (py!"NDB Navaid as Waypoint" ++ (b :: rest))) ∧
    (∀ s, ([a], s) ∈ waypointTypes1 → Shows .f042 (a :: b :: rest) s) ∧
    (a ≠ 78 → (∀ s, ([a], s) ∉ waypointTypes1) →
      (∀ s, ([b], s) ∈ waypointTypes2 → Shows .f042 (a :: b :: rest) s) ∧
      ((∀ s, ([b], s) ∉ waypointTypes2) →
        Shows .f042 (a :: b :: rest) (py!"Unknown Waypoint Type"))) := by
  have o1 : tableOK waypointTypes1 = true := by decide +kernel
  have o2 : tableOK waypointTypes2 = true := by decide +kernel
  have e : field_042 (a :: b :: rest) =
      if [a] = py!"N" then ret (py!"NDB Navaid as Waypoint" ++ (b :: rest))
      else match t042_0.lookup [a] with
        | some s => ret s
        | none => match t042_1.lookup [b] with
          | some s => ret s
          | none => ret (py!"Unknown Waypoint Type") := rfl
  have hN : [a] = py!"N" ↔ a = 78 := by simp
  have fin : ∀ s, field_042 (a :: b :: rest) = ret s → Shows .f042 (a :: b :: rest) s :=
    fun s h rec legs => congrArg (quiet legs) h
  rw [t042_0_eq, t042_1_eq] at e
  refine ⟨?_, ?_, ?_⟩
  · intro ha
    apply fin
    rw [e, if_pos (hN.2 ha)]
  · intro s hs
    apply fin
    have : [a] ≠ py!"N" := by
      intro h
      rw [h] at hs
      have : waypointTypes1.all (fun p => p.1 != py!"N") = true := by decide +kernel
      have := List.all_eq_true.1 this _ hs
      simp at this
    rw [e, if_neg this, lookup_of_documented o1 hs]
  · intro ha h1
    rw [if_neg (fun h => ha (hN.1 h)), lookup_of_undocumented h1] at e
    refine ⟨fun s hs => ?_, fun h2 => ?_⟩
    · apply fin
      rw [e]
      simp only [lookup_of_documented o2 hs]
    · apply fin
      rw [e]
      simp only [lookup_of_undocumented h2]

/-- C61: name formats: a documented first column decides, else a documented second column, else it is
    unknown. -/
theorem C61_name_format (a b : Nat) (rest : Str) :
    (∀ s, ([a], s) ∈ nameFormats1 → Shows .f196 (a :: b :: rest) s) ∧
    ((∀ s, ([a], s) ∉ nameFormats1) →
      (∀ s, ([b], s) ∈ nameFormats2 → Shows .f196 (a :: b :: rest) s) ∧
      ((∀ s, ([b], s) ∉ nameFormats2) →
        Shows .f196 (a :: b :: rest) (py!"Unknown Name Format Indicator"))) := by
  have o1 : tableOK nameFormats1 = true := by decide +kernel
  have o2 : tableOK nameFormats2 = true := by decide +kernel
  have e : field_196 (a :: b :: rest) =
      match t196_0.lookup [a] with
        | some s => ret s
        | none => match t196_1.lookup [b] with
          | some s => ret s
          | none => ret (py!"Unknown Name Format Indicator") := rfl
  have fin : ∀ s, field_196 (a :: b :: rest) = ret s → Shows .f196 (a :: b :: rest) s :=
    fun s h rec legs => congrArg (quiet legs) h
  rw [t196_0_eq, t196_1_eq] at e
  refine ⟨?_, ?_⟩
  · intro s hs
    apply fin
    rw [e, lookup_of_documented o1 hs]
  · intro h1
    rw [lookup_of_undocumented h1] at e
    refine ⟨fun s hs => ?_, fun h2 => ?_⟩
    · apply fin
      rw [e]
      simp only [lookup_of_documented o2 hs]
    · apply fin
      rw [e]
      simp only [lookup_of_undocumented h2]

omit [PyUnicode] in
theorem boundaryVia_eq (s : Str) : boundaryVia s = boundaryVias.lookup s := by
  unfold boundaryVia boundaryVias
  simp only [lookup_cons_ite, List.lookup_nil]

/-- C61: boundary via: the first column gives the kind, an E in the second adds the end of the
    description; an undocumented first column is reported and shown as unsupported. -/
theorem C61_boundary_via (a b : Nat) (rest : Str) :
    (∀ s, ([a], s) ∈ boundaryVias → b = 69 →
      Shows .f118 (a :: b :: rest) (s ++ py!", End of description, return to origin point")) ∧
    (∀ s, ([a], s) ∈ boundaryVias → b ≠ 69 → Shows .f118 (a :: b :: rest) s) ∧
    ((∀ s, ([a], s) ∉ boundaryVias) → ∀ rec legs, runDec .f118 (a :: b :: rest) rec legs =
      ⟨.ok (.str (py!"Unsupported Value: \"" ++ (a :: b :: rest) ++ py!"\"")),
       [.line (py!"Unsupported Boundary Via: \"" ++ (a :: b :: rest) ++ py!"\"")], legs⟩) := by
  have o1 : tableOK boundaryVias = true := by decide +kernel
  have e : field_118 (a :: b :: rest) =
      match boundaryVia [a] with
      | none => (ret (py!"Unsupported Value: \"" ++ (a :: b :: rest) ++ py!"\""),
         [.line (py!"Unsupported Boundary Via: \"" ++ (a :: b :: rest) ++ py!"\"")])
      | some s =>
        if [b] = py!"E" then (ret (s ++ py!", End of description, return to origin point"), [])
        else (ret s, []) := rfl
  have hE : [b] = py!"E" ↔ b = 69 := by simp
  rw [boundaryVia_eq] at e
  refine ⟨?_, ?_, ?_⟩
  · intro s hs hb rec legs
    refine congrArg (noisy legs) (?_ : field_118 (a :: b :: rest) = (ret _, []))
    rw [e, lookup_of_documented o1 hs]
    simp only
    rw [if_pos (hE.2 hb)]
  · intro s hs hb rec legs
    refine congrArg (noisy legs) (?_ : field_118 (a :: b :: rest) = (ret _, []))
    rw [e, lookup_of_documented o1 hs]
    simp only
    rw [if_neg (fun h => hb (hE.1 h))]
  · intro h rec legs
    refine congrArg (noisy legs) (?_ : field_118 (a :: b :: rest) = (ret _, _))
    rw [e, lookup_of_undocumented h]

omit [PyUnicode] in
theorem field_082_eq (a b : Nat) (rest : Str) : field_082 (a :: b :: rest) =
    match waypointUsages.lookup [b] with
    | some s => ret s
    | none => if [a] = py!"R" then ret (py!"RNAV") else .error .valueError := by
  have e : field_082 (a :: b :: rest) =
    if [b] = py!"B" then ret (py!"HI and LO Altitude")
    else if [b] = py!"H" then ret (py!"HI Altitude")
    else if [b] = py!"L" then ret (py!"LO Altitude")
    else if [b] = py!" " then ret (py!"Terminal Use Only")
    else if [a] = py!"R" then ret (py!"RNAV") else .error .valueError := rfl
  rw [e]
  unfold waypointUsages
  simp only [lookup_cons_ite, List.lookup_nil]
  by_cases h1 : [b] = py!"B"
  · rw [if_pos h1, if_pos h1]
  · rw [if_neg h1, if_neg h1]
    by_cases h2 : [b] = py!"H"
    · rw [if_pos h2, if_pos h2]
    · rw [if_neg h2, if_neg h2]
      by_cases h3 : [b] = py!"L"
      · rw [if_pos h3, if_pos h3]
      · rw [if_neg h3, if_neg h3]
        by_cases h4 : [b] = py!" "
        · rw [if_pos h4, if_pos h4]
        · rw [if_neg h4, if_neg h4]

/-- C61: waypoint usage: a documented second column decides; else R in the first column shows RNAV; else
    it raises. -/
theorem C61_waypoint_usage (a b : Nat) (rest : Str) :
    (∀ s, ([b], s) ∈ waypointUsages → Shows .f082 (a :: b :: rest) s) ∧
    ((∀ s, ([b], s) ∉ waypointUsages) → a = 82 → Shows .f082 (a :: b :: rest) (py!"RNAV")) ∧
    ((∀ s, ([b], s) ∉ waypointUsages) → a ≠ 82 → Rejects .f082 (a :: b :: rest)) := by
  have o1 : tableOK waypointUsages = true := by decide +kernel
  have hR : [a] = py!"R" ↔ a = 82 := by simp
  have e := field_082_eq a b rest
  refine ⟨?_, ?_, ?_⟩
  · intro s hs rec legs
    refine congrArg (quiet legs) (?_ : field_082 (a :: b :: rest) = ret s)
    rw [e, lookup_of_documented o1 hs]
  · intro h ha rec legs
    refine congrArg (quiet legs) (?_ : field_082 (a :: b :: rest) = ret _)
    rw [e, lookup_of_undocumented h]
    simp only
    rw [if_pos (hR.2 ha)]
  · intro h ha rec legs
    refine congrArg (quiet legs) (?_ : field_082 (a :: b :: rest) = .error .valueError)
    rw [e, lookup_of_undocumented h]
    simp only
    rw [if_neg (fun h => ha (hR.1 h))]

/-- C61: approach identifiers show the type and the three characters of the runway. -/
theorem C61_approach (a b c d : Nat) (rest : Str) :
    Shows .f010 (a :: b :: c :: d :: rest) (py!"Approach: " ++ [a] ++ py!", Runway: " ++ [b, c, d]) := by
  intro rec legs
  refine congrArg (quiet legs) (?_ : field_010 _ = ret _)
  rfl

/-- C61: sequence numbers show their value, after the kind given by the number of characters. -/
theorem C61_sequence_number (v : Str) :
    (∀ kind, ((strip v).length, kind) ∈ sequenceKinds → Shows .f012 v (kind ++ py!" - Sequence No. " ++ v)) ∧
    ((∀ kind, ((strip v).length, kind) ∉ sequenceKinds) → Shows .f012 v v) := by
  constructor
  · intro kind hk rec legs
    refine congrArg (quiet legs) (?_ : field_012 v = ret _)
    simp only [sequenceKinds, List.mem_cons, List.not_mem_nil, or_false, Prod.mk.injEq] at hk
    unfold field_012
    simp only
    rcases hk with ⟨h, rfl⟩ | ⟨h, rfl⟩ | ⟨h, rfl⟩ | ⟨h, rfl⟩ <;> rw [h] <;> rfl
  · intro hk rec legs
    refine congrArg (quiet legs) (?_ : field_012 v = ret _)
    simp only [sequenceKinds, List.mem_cons, List.not_mem_nil, or_false, Prod.mk.injEq, not_or] at hk
    have h1 : (strip v).length ≠ 1 := fun h => (hk _).1 ⟨h, rfl⟩
    have h2 : (strip v).length ≠ 2 := fun h => (hk _).2.1 ⟨h, rfl⟩
    have h3 : (strip v).length ≠ 3 := fun h => (hk _).2.2.1 ⟨h, rfl⟩
    have h4 : (strip v).length ≠ 4 := fun h => (hk _).2.2.2 ⟨h, rfl⟩
    unfold field_012
    simp only
    rw [if_neg h1, if_neg h2, if_neg h3, if_neg h4]

/-- C61: continuation numbers tell primary records from continuation records. -/
theorem C61_continuation_number (v : Str) :
    (v = py!"0" → Shows .f016 v (py!"Primary Record")) ∧
    (v = py!"1" → Shows .f016 v (py!"Primary Record (with Cont.)")) ∧
    (v ≠ py!"0" → v ≠ py!"1" → Shows .f016 v (v ++ py!" - Continuation")) := by
  refine ⟨?_, ?_, ?_⟩
  · rintro rfl rec legs; rfl
  · rintro rfl rec legs; rfl
  · intro h0 h1 rec legs
    refine congrArg (quiet legs) (?_ : field_016 v = ret _)
    unfold field_016
    rw [if_neg h0, if_neg h1]

end

/-! ## Non-vacuity -/
section
attribute [local instance] Py.Tables.cpython311

example : Shows .f003 (py!"EUR") (py!"Europe") :=
  C49_documented (t := ⟨.f003, areaCodes, false, .text (py!"<UNKNOWN>")⟩) (by simp [codeFields])
    (by decide +kernel)
example : Shows .f004 (py!"ZZ") (py!"<UNKNOWN>") :=
  C49_otherwise sectionField_mem
    (fun d hd => absurd (List.mem_map.2 ⟨_, hd, rfl⟩ : py!"ZZ" ∈ sectionCodes.map Prod.fst) (by decide +kernel))
    (fun _ h => absurd (h 90 (by simp)) (by decide +kernel))
example : Shows .f106 (py!"   ") (py!"   ") :=
  C49_blank (t := ⟨.f106, serviceIndicators, true, .text (py!"<UNKNOWN>")⟩) (by simp [codeFields]) rfl
    (fun c hc => by simp at hc; subst hc; rfl)
example : (runDec .f007 (py!"1") ⟨py!"PD", []⟩ []).res = .ok (.str (py!"SID Runway Transition")) := by
  rw [(C49_route_type _ _ _).1 (py!"SID Runway Transition") (by decide +kernel)]
example : (runDec .f007 (py!"1") ⟨py!"PE", []⟩ []).res = .ok (.str (py!"STAR Enroute Transition")) := by
  rw [(C49_route_type _ _ _).1 (py!"STAR Enroute Transition") (by decide +kernel)]
example : (runDec .f021 (py!"CF") ⟨[], []⟩ legTypeDesc).res = .ok (.str (py!"Course to a Fix or CF Leg.")) :=
  (C49_path_terminator (py!"CF") ⟨[], []⟩ grown_init).1 _ (by decide +kernel)
example : Shows .f004 (py!"PA") (py!"Airport Reference Point") :=
  C49_documented sectionField_mem (by simp only [sectionField]; decide +kernel)
example : py!"PA" ∈ supported := by decide +kernel
/-- an accepted record with interpreted and pass-through fields -/
example : (Record.new.read Sample.airport).res = .ok true ∧
    (Record.new.read Sample.airport).obj.fields.any (fun f => decide (f.dec ∉ interpreted)) = true ∧
    (Record.new.read Sample.airport).obj.fields.any (fun f => decide (f.dec ∈ interpreted)) = true := by
  decide +kernel
example : Shows .f017 (py!"EE F") (py!"Essential Waypoint" ++ [10] ++
    py!"End of Enroute Airway or Terminal Procedure Route Type" ++ [10] ++
    py!"Published Final Approach Fix or Database Final Approach Fix") := C56_positions 69 69 32 70 []
example : Shows .f017 (py!"    ") [] := C56_positions 32 32 32 32 []
example : Shows .f042 (py!"NB ") (py!"NDB Navaid as WaypointB ") := (C61_waypoint_type 78 66 [32]).1 rfl
example : Shows .f042 (py!"W  ") (py!"RNAV Waypoint") := (C61_waypoint_type 87 32 [32]).2.1 _ (by decide +kernel)
example : Shows .f118 (py!"GE") (py!"Great Circle, End of description, return to origin point") :=
  (C61_boundary_via 71 69 []).1 (py!"Great Circle") (by decide +kernel) rfl
example : Shows .f012 (py!"010") (py!"SID/STAR/Approach and Company Routes - Sequence No. 010") :=
  (C61_sequence_number (py!"010")).1 (py!"SID/STAR/Approach and Company Routes") (by decide +kernel)

end
end Arinc
