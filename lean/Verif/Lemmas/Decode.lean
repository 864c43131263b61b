import Verif.Lemmas.Layout
import Verif.Model.World
import Verif.Spec.Domain
import Verif.Lemmas.Number
/-! Helper lemmas: decoders. -/
namespace Arinc
open Py Spec

/-- width a decoder needs, and existence of pass-through decoders -/
def widthOK (fn : DecFn) (w : Nat) : Bool :=
  match fn with
  | .ident n => identityFns.contains n
  | .f010 | .f178 => 1 ≤ w
  | .f017 => 4 ≤ w
  | .f042 | .f082 | .f118 | .f196 => 2 ≤ w
  | .f039 => 1 ≤ w
  | _ => true

theorem width_ok : registry.all (fun p => p.2.layouts.all fun l => l.all fun s =>
    widthOK s.dec s.slice.columns.length) = true := by decide +kernel

section
variable [PyUnicode]

theorem pyFloat_err {s : Str} {e : Exc} (h : pyFloat s = .error e) : e = .valueError := by
  unfold pyFloat at h
  simp only at h
  repeat' split at h
  all_goals first | (cases h; rfl) | cases h

theorem pyInt_err {s : Str} {e : Exc} (h : pyInt s = .error e) : e = .valueError := by
  unfold pyInt at h
  simp only at h
  repeat' split at h
  all_goals first | (cases h; rfl) | cases h

theorem not_isFloat {s : Str} (h : ¬ IsFloat s) : pyFloat s = .error .valueError := by
  cases hf : pyFloat s with
  | ok x => exact absurd (lit_of hf) h
  | error e => rw [pyFloat_err hf]

theorem not_isInt {s : Str} (h : ¬ IsInt s) : pyInt s = .error .valueError := by
  cases hf : pyInt s with
  | ok x => exact absurd ⟨x, pyInt_iff.1 hf⟩ h
  | error e => rw [pyInt_err hf]

/-- what a decoder raises outside its domain -/
def excOf (fn : DecFn) (v : Str) : Exc :=
  match fn with
  | .f034 => if isNumeric (strip v) then .valueError else .systemExit
  | _ => .valueError

/-- the shape of statement proved for every decoder -/
def DecSpec (fn : DecFn) (v : Str) (res : Except Exc PyVal) : Prop :=
  (InDomain fn v ∧ ∃ x, res = .ok x) ∨ (¬ InDomain fn v ∧ res = .error (excOf fn v))

omit [PyUnicode] in
theorem index_cons_zero {c : Nat} {s : Str} : index (c :: s) 0 = .ok [c] := rfl
omit [PyUnicode] in
theorem index_cons_one {a c : Nat} {s : Str} : index (a :: c :: s) 1 = .ok [c] := rfl

omit [PyUnicode] in
theorem strip_nil_iff {v : Str} : strip v = [] ↔ AllSpace v := strip_eq_nil_iff

theorem total_spec {fn : DecFn} {v : Str} {res : Except Exc PyVal} (h : InDomain fn v = True)
    (hr : ∃ x, res = .ok x) : DecSpec fn v res := .inl ⟨by rw [h]; trivial, hr⟩

theorem feet_ok (v : Str) : ∃ x, feet v = .ok x := by
  unfold feet; split <;> exact ⟨_, rfl⟩

omit [PyUnicode] in
theorem strip_length_zero {v : Str} : (strip v).length = 0 ↔ AllSpace v := by
  rw [List.length_eq_zero_iff, strip_nil_iff]

theorem spec_026 (v : Str) : DecSpec .f026 v (field_026 v) := by
  unfold field_026 DecSpec
  simp only [InDomain, excOf]
  by_cases h0 : AllSpace v
  · left; exact ⟨.inl h0, _, by rw [if_pos (strip_length_zero.2 h0)]; rfl⟩
  · rw [if_neg (mt strip_length_zero.1 h0)]
    by_cases h1 : isAlnum (strip v) = false ∨ (strip v).length > 4
    · right
      rw [if_pos h1]
      refine ⟨?_, rfl⟩
      rintro (h | ⟨h2, h3, _⟩)
      · exact h0 h
      · rcases h1 with h1 | h1
        · rw [h1] at h2; cases h2
        · omega
    · rw [if_neg h1]
      have h2 : isAlnum (strip v) = true ∧ (strip v).length ≤ 4 := by
        constructor
        · cases h : isAlnum (strip v)
          · exact absurd (.inl h) h1
          · rfl
        · have : ¬ (strip v).length > 4 := fun h => h1 (.inr h)
          omega
      by_cases h3 : endsWithChar (strip v) 84 = true
      · left
        rw [if_pos h3]
        exact ⟨.inr ⟨h2.1, h2.2, .inl (by simpa [endsWithChar] using h3)⟩, _, rfl⟩
      · rw [if_neg h3]
        have h3' : (strip v).getLast? ≠ some 84 := by simpa [endsWithChar] using h3
        by_cases h4 : IsFloat (strip v)
        · left
          obtain ⟨x, hx⟩ := h4
          refine ⟨.inr ⟨h2.1, h2.2, .inr ⟨x, hx⟩⟩, ?_⟩
          rw [pyFloat_of hx]; exact ⟨_, rfl⟩
        · right
          rw [not_isFloat h4]
          refine ⟨?_, rfl⟩
          rintro (h | ⟨_, _, h | h⟩)
          · exact h0 h
          · exact h3' h
          · exact h4 h

theorem float_bind (s : Str) (g : Dbl → Except Exc PyVal) (hg : ∀ x, ∃ y, g x = .ok y) :
    (IsFloat s ∧ ∃ y, (pyFloat s >>= g) = .ok y) ∨
    (¬ IsFloat s ∧ (pyFloat s >>= g) = .error .valueError) := by
  by_cases h : IsFloat s
  · left
    refine ⟨h, ?_⟩
    obtain ⟨x, hx⟩ := h
    obtain ⟨y, hy⟩ := hg (litDbl x)
    exact ⟨y, by rw [pyFloat_of hx]; exact hy⟩
  · right; exact ⟨h, by rw [not_isFloat h]; rfl⟩

theorem int_bind (s : Str) (g : Int → Except Exc PyVal) (hg : ∀ x, ∃ y, g x = .ok y) :
    (IsInt s ∧ ∃ y, (pyInt s >>= g) = .ok y) ∨
    (¬ IsInt s ∧ (pyInt s >>= g) = .error .valueError) := by
  by_cases h : IsInt s
  · left
    refine ⟨h, ?_⟩
    obtain ⟨x, hx⟩ := h
    obtain ⟨y, hy⟩ := hg x
    exact ⟨y, by rw [pyInt_iff.2 hx]; exact hy⟩
  · right; exact ⟨h, by rw [not_isInt h]; rfl⟩

theorem spec_027 (v : Str) : DecSpec .f027 v (field_027 v) := by
  unfold field_027 DecSpec
  simp only [InDomain, excOf]
  by_cases h0 : AllSpace v
  · left
    have : ¬ (strip v).length > 0 := by rw [strip_length_zero.2 h0]; omega
    exact ⟨.inl h0, _, by rw [if_neg this]; rfl⟩
  · have : (strip v).length > 0 := by
      have := mt strip_length_zero.1 h0; omega
    rw [if_pos this]
    cases hs : strip v with
    | nil => rw [hs] at this; simp at this
    | cons c s =>
      show _ ∨ (_ ∧ (if [c] = py!"T" then
        (pyFloat s >>= fun x => ret ((x.divNat 10).fmt 1 ++ py!" min")) else
        (pyFloat (c :: s) >>= fun x => ret ((x.divNat 10).fmt 1 ++ py!" nm"))) = _)
      change (_ ∧ ∃ x, (if [c] = py!"T" then
        (pyFloat s >>= fun x => ret ((x.divNat 10).fmt 1 ++ py!" min")) else
        (pyFloat (c :: s) >>= fun x => ret ((x.divNat 10).fmt 1 ++ py!" nm"))) = _) ∨ _
      simp only [List.head?_cons, Option.some.injEq, List.cons.injEq, and_true, List.drop_succ_cons,
        List.drop_zero]
      by_cases hc : c = 84
      · simp only [if_pos hc]
        rcases float_bind s (fun x => ret ((x.divNat 10).fmt 1 ++ py!" min")) (fun x => ⟨_, rfl⟩)
          with ⟨h1, h2⟩ | ⟨h1, h2⟩
        · exact .inl ⟨.inr h1, h2⟩
        · exact .inr ⟨fun h => h.elim h0 h1, h2⟩
      · simp only [if_neg hc]
        rcases float_bind (c :: s) (fun x => ret ((x.divNat 10).fmt 1 ++ py!" nm"))
          (fun x => ⟨_, rfl⟩) with ⟨h1, h2⟩ | ⟨h1, h2⟩
        · exact .inl ⟨.inr h1, h2⟩
        · exact .inr ⟨fun h => h.elim h0 h1, h2⟩

theorem spec_032 (v : Str) : DecSpec .f032 v (field_032 v) := by
  have : slice v 0 2 = v.take 2 := by simp [slice]
  unfold field_032 DecSpec
  simp only [InDomain, excOf]
  rw [this]
  exact int_bind (v.take 2) _ (fun x => ⟨_, rfl⟩)

theorem spec_034 (v i r : Str) : DecSpec .f034 v (field_034 v i r).1 := by
  unfold field_034 DecSpec
  simp only [InDomain, excOf]
  by_cases h0 : AllSpace v
  · left
    have : ¬ (strip v).length > 0 := by rw [strip_length_zero.2 h0]; omega
    exact ⟨.inl h0, _, by rw [if_neg this]; rfl⟩
  · have : (strip v).length > 0 := by
      have := mt strip_length_zero.1 h0; omega
    rw [if_pos this]
    cases hn : isNumeric (strip v) with
    | false =>
      right
      exact ⟨fun h => h.elim h0 (fun h => nomatch h.1), rfl⟩
    | true =>
      rcases float_bind (strip v) (fun x => ret ((x.divNat 100).fmt 2)) (fun x => ⟨_, rfl⟩)
          with ⟨h1, h2⟩ | ⟨h1, h2⟩
      · exact .inl ⟨.inr ⟨rfl, h1⟩, h2⟩
      · exact .inr ⟨fun h => h.elim h0 (fun h => h1 h.2), h2⟩

theorem spec_039 (v : Str) (hw : 1 ≤ v.length) : DecSpec .f039 v (field_039 v) := by
  unfold field_039 DecSpec
  simp only [InDomain, excOf]
  by_cases h0 : AllSpace v
  · left; exact ⟨.inl h0, _, by rw [if_pos (strip_nil_iff.2 h0)]; rfl⟩
  · rw [if_neg (mt strip_nil_iff.1 h0)]
    cases v with
    | nil => simp at hw
    | cons c s =>
      rcases int_bind s (fun i => ret (fmt03 i ++ py!" " ++ [c])) (fun x => ⟨_, rfl⟩)
          with ⟨h1, h2⟩ | ⟨h1, h2⟩
      · exact .inl ⟨.inr h1, h2⟩
      · exact .inr ⟨fun h => h.elim h0 h1, h2⟩

theorem spec_numfloat (fn : DecFn) (v : Str) (g : Dbl → Except Exc PyVal) (e : Str)
    (hg : ∀ x, ∃ y, g x = .ok y) (hd : InDomain fn v = (isNumeric v = true → IsFloat v))
    (he : excOf fn v = .valueError) :
    DecSpec fn v (if isNumeric v then pyFloat v >>= g else ret e) := by
  unfold DecSpec
  rw [hd, he]
  cases hn : isNumeric v with
  | false => left; exact ⟨nofun, _, rfl⟩
  | true =>
    simp only [if_true, forall_const]
    exact float_bind v g hg

theorem spec_072 (v : Str) : DecSpec .f072 v (field_072 v) := by
  unfold field_072 DecSpec
  simp only [InDomain, excOf]
  cases hn : isNumeric v with
  | true => left; exact ⟨.inl rfl, _, rfl⟩
  | false =>
    simp only [Bool.false_eq_true, if_false, false_or]
    by_cases h0 : AllSpace v
    · left; exact ⟨h0, _, by rw [if_pos (strip_nil_iff.2 h0)]; rfl⟩
    · right; exact ⟨h0, by rw [if_neg (mt strip_nil_iff.1 h0)]⟩

theorem spec_269 (v : Str) : DecSpec .f269 v (field_269 v) := by
  unfold field_269 DecSpec
  simp only [InDomain, excOf]
  by_cases h0 : AllSpace v
  · left; exact ⟨.inl h0, _, by rw [if_neg (by simpa using strip_nil_iff.2 h0)]; rfl⟩
  · rw [if_pos (mt strip_nil_iff.1 h0)]
    rcases float_bind v (fun x => .ok (.float (x.divNat 10))) (fun x => ⟨_, rfl⟩)
      with ⟨h1, h2⟩ | ⟨h1, h2⟩
    · exact .inl ⟨.inr h1, h2⟩
    · exact .inr ⟨fun h => h.elim h0 h1, h2⟩

omit [PyUnicode] in
theorem two_cons {v : Str} (h : 2 ≤ v.length) : ∃ a b s, v = a :: b :: s := by
  match v, h with
  | a :: b :: s, _ => exact ⟨a, b, s, rfl⟩

theorem spec_082 (v : Str) (hw : 2 ≤ v.length) : DecSpec .f082 v (field_082 v) := by
  obtain ⟨a, b, s, rfl⟩ := two_cons hw
  unfold DecSpec
  simp only [InDomain, excOf, col, List.getElem?_cons_zero, List.getElem?_cons_succ,
    Option.toList_some]
  show (_ ∧ ∃ x, (if [b] = py!"B" then ret (py!"HI and LO Altitude")
  else if [b] = py!"H" then ret (py!"HI Altitude")
  else if [b] = py!"L" then ret (py!"LO Altitude")
  else if [b] = py!" " then ret (py!"Terminal Use Only")
  else if [a] = py!"R" then ret (py!"RNAV") else .error .valueError) = _) ∨
   (_ ∧ (if [b] = py!"B" then ret (py!"HI and LO Altitude")
  else if [b] = py!"H" then ret (py!"HI Altitude")
  else if [b] = py!"L" then ret (py!"LO Altitude")
  else if [b] = py!" " then ret (py!"Terminal Use Only")
  else if [a] = py!"R" then ret (py!"RNAV") else .error .valueError) = _)
  by_cases h1 : [b] = py!"B"
  · left; rw [if_pos h1, h1]; exact ⟨.inr (by decide), _, rfl⟩
  · rw [if_neg h1]
    by_cases h2 : [b] = py!"H"
    · left; rw [if_pos h2, h2]; exact ⟨.inr (by decide), _, rfl⟩
    · rw [if_neg h2]
      by_cases h3 : [b] = py!"L"
      · left; rw [if_pos h3, h3]; exact ⟨.inr (by decide), _, rfl⟩
      · rw [if_neg h3]
        by_cases h4 : [b] = py!" "
        · left; rw [if_pos h4, h4]; exact ⟨.inr (by decide), _, rfl⟩
        · rw [if_neg h4]
          by_cases h5 : [a] = py!"R"
          · left; rw [if_pos h5]; exact ⟨.inl h5, _, rfl⟩
          · right; rw [if_neg h5]
            refine ⟨?_, rfl⟩
            rintro (h | h)
            · exact h5 h
            · simp only [List.mem_cons, List.not_mem_nil, or_false] at h
              rcases h with h | h | h | h
              · exact h1 h
              · exact h2 h
              · exact h3 h
              · exact h4 h

theorem spec_178 (v : Str) (hw : 1 ≤ v.length) : DecSpec .f178 v (field_178 v) := by
  cases v with
  | nil => simp at hw
  | cons c s =>
    have key : field_178 (c :: s) = (if isAlpha [c] && isNumeric s then
        (upperIndex [c] >>= fun i =>
          ret ((if i - 12 ≥ 0 then py!"GMT +" ++ intStr (i - 12) else py!"GMT -" ++ intStr (i - 12))
            ++ py!":" ++ s)) else ret (unsupported (c :: s))) := rfl
    rw [key]
    unfold DecSpec
    simp only [InDomain, excOf, col, List.getElem?_cons_zero, Option.toList_some, List.drop_succ_cons,
      List.drop_zero, List.head?_cons, Option.some.injEq]
    by_cases h1 : isAlpha [c] = true
    · by_cases h2 : isNumeric s = true
      · rw [if_pos (by rw [h1, h2]; rfl)]
        by_cases h3 : 65 ≤ c ∧ c ≤ 90
        · left
          refine ⟨fun _ _ => ⟨c, rfl, h3⟩, ?_⟩
          have : upperIndex [c] = .ok ((c : Int) - 65) := by simp [upperIndex, h3]
          rw [this]; exact ⟨_, rfl⟩
        · right
          have : upperIndex [c] = .error .valueError := by simp only [upperIndex, if_neg h3]
          rw [this]
          refine ⟨fun h => ?_, rfl⟩
          obtain ⟨c', hc', h4⟩ := h h1 h2
          subst hc'
          exact h3 h4
      · left
        refine ⟨fun _ h => absurd h h2, ?_⟩
        rw [if_neg (by rw [h1]; simpa using h2)]; exact ⟨_, rfl⟩
    · left
      refine ⟨fun h => absurd h h1, ?_⟩
      rw [if_neg (by simp [h1])]; exact ⟨_, rfl⟩

theorem spec_str3 (fn : DecFn) (v : Str) (hd : InDomain fn v =
    (AllSpace v ∨ (isAlnum (strip v) = true ∧ (strip v).length ≤ 4)))
    (he : excOf fn v = .valueError) : DecSpec fn v
      (if (strip v).length > 0 then
        if isAlnum (strip v) = false ∨ (strip v).length > 4 then .error .valueError else ret (strip v)
       else ret (strip v)) := by
  unfold DecSpec
  rw [hd, he]
  by_cases h0 : AllSpace v
  · left
    have : ¬ (strip v).length > 0 := by rw [strip_length_zero.2 h0]; omega
    exact ⟨.inl h0, _, by rw [if_neg this]; rfl⟩
  · have : (strip v).length > 0 := by
      have := mt strip_length_zero.1 h0; omega
    rw [if_pos this]
    by_cases h1 : isAlnum (strip v) = false ∨ (strip v).length > 4
    · right
      rw [if_pos h1]
      refine ⟨?_, rfl⟩
      rintro (h | ⟨h2, h3⟩)
      · exact h0 h
      · rcases h1 with h1 | h1
        · rw [h1] at h2; cases h2
        · omega
    · left
      rw [if_neg h1]
      refine ⟨.inr ⟨?_, ?_⟩, _, rfl⟩
      · cases h : isAlnum (strip v)
        · exact absurd (.inl h) h1
        · rfl
      · have : ¬ (strip v).length > 4 := fun h => h1 (.inr h)
        omega

theorem spec_021 (v : Str) (legs : Legs) : DecSpec .f021 v (field_021 v legs).res := by
  unfold field_021 DecSpec
  simp only [InDomain, excOf]
  by_cases h0 : AllSpace v
  · left; exact ⟨.inl h0, _, by rw [if_pos (strip_length_zero.2 h0)]; rfl⟩
  · rw [if_neg (mt strip_length_zero.1 h0)]
    cases ha : isAlpha (strip v) with
    | false =>
      right
      exact ⟨fun h => h.elim h0 (fun h => nomatch h), rfl⟩
    | true =>
      left
      refine ⟨.inr rfl, ?_⟩
      simp only [Bool.not_true, Bool.false_eq_true, if_false]
      split <;> exact ⟨_, rfl⟩

theorem spec_022 (v : Str) : DecSpec .f022 v (field_022 v) := by
  unfold field_022 DecSpec
  simp only [InDomain, excOf]
  by_cases h0 : AllSpace v
  · left
    have : ¬ (strip v).length > 0 := by rw [strip_length_zero.2 h0]; omega
    exact ⟨.inl h0, _, by rw [if_neg this]; rfl⟩
  · have : (strip v).length > 0 := by
      have := mt strip_length_zero.1 h0; omega
    rw [if_pos this]
    cases ha : isAlpha (strip v) with
    | false =>
      right
      exact ⟨fun h => h.elim h0 (fun h => nomatch h), rfl⟩
    | true => left; exact ⟨.inr rfl, _, rfl⟩

theorem spec_008 (v : Str) : DecSpec .f008 v (field_008 v) := by
  unfold field_008 DecSpec
  simp only [InDomain, excOf]
  cases h : isAlnum (strip v)
  · right; exact ⟨nofun, rfl⟩
  · left; exact ⟨rfl, _, rfl⟩

theorem spec_mem2 (fn : DecFn) (v a b : Str) (x y : Except Exc PyVal) (hx : ∃ p, x = .ok p)
    (hy : ∃ p, y = .ok p) (hd : InDomain fn v = (v ∈ [a, b])) (he : excOf fn v = .valueError) :
    DecSpec fn v (if v = a then x else if v = b then y else .error .valueError) := by
  unfold DecSpec
  rw [hd, he]
  by_cases h1 : v = a
  · left; rw [if_pos h1]; exact ⟨by simp [h1], hx⟩
  · rw [if_neg h1]
    by_cases h2 : v = b
    · left; rw [if_pos h2]; exact ⟨by simp [h2], hy⟩
    · right; rw [if_neg h2]; exact ⟨by simp [h1, h2], rfl⟩

theorem spec_020 (v : Str) : DecSpec .f020 v (field_020 v) := by
  unfold field_020 DecSpec
  simp only [InDomain, excOf, List.mem_cons, List.not_mem_nil, or_false]
  by_cases h1 : v = py!"R"
  · left; rw [if_pos h1]; exact ⟨.inl h1, _, rfl⟩
  · rw [if_neg h1]
    by_cases h2 : v = py!"L"
    · left; rw [if_pos h2]; exact ⟨.inr (.inl h2), _, rfl⟩
    · rw [if_neg h2]
      by_cases h3 : v = py!"E" ∨ v = py!" "
      · left; rw [if_pos h3]; exact ⟨.inr (.inr h3), _, rfl⟩
      · right; rw [if_neg h3]
        exact ⟨fun h => h.elim h1 (fun h => h.elim h2 h3), rfl⟩

theorem spec_182 (v : Str) : DecSpec .f182 v (field_182 v) := by
  unfold field_182 DecSpec
  simp only [InDomain, excOf, List.mem_cons, List.not_mem_nil, or_false]
  by_cases h1 : v = py!"G"
  · left; rw [if_pos h1]; exact ⟨.inl h1, _, rfl⟩
  · rw [if_neg h1]
    by_cases h2 : v = py!"T"
    · left; rw [if_pos h2]; exact ⟨.inr (.inl h2), _, rfl⟩
    · rw [if_neg h2]
      by_cases h3 : v = py!" "
      · left; rw [if_pos h3]; exact ⟨.inr (.inr h3), _, rfl⟩
      · right; rw [if_neg h3]
        exact ⟨fun h => h.elim h1 (fun h => h.elim h2 h3), rfl⟩

theorem spec_270 (v : Str) : DecSpec .f270 v (field_270 v) := by
  unfold field_270 DecSpec
  simp only [InDomain, excOf, List.mem_cons, List.not_mem_nil, or_false]
  by_cases h1 : v = py!"I"
  · left; rw [if_pos h1]; exact ⟨.inl h1, _, rfl⟩
  · rw [if_neg h1]
    by_cases h2 : v = py!"R"
    · left; rw [if_pos h2]; exact ⟨.inr (.inl h2), _, rfl⟩
    · rw [if_neg h2]
      by_cases h3 : v = py!"V"
      · left; rw [if_pos h3]; exact ⟨.inr (.inr (.inl h3)), _, rfl⟩
      · rw [if_neg h3]
        by_cases h4 : v = py!"D"
        · left; rw [if_pos h4]; exact ⟨.inr (.inr (.inr (.inl h4))), _, rfl⟩
        · rw [if_neg h4]
          by_cases h5 : v = py!" "
          · left; rw [if_pos h5]; exact ⟨.inr (.inr (.inr (.inr h5))), _, rfl⟩
          · right; rw [if_neg h5]
            exact ⟨fun h => h.elim h1 (fun h => h.elim h2 (fun h => h.elim h3 (fun h => h.elim h4 h5))), rfl⟩

omit [PyUnicode] in
theorem ok_042 (v : Str) (hw : 2 ≤ v.length) : ∃ x, field_042 v = .ok x := by
  obtain ⟨a, b, s, rfl⟩ := two_cons hw
  have key : field_042 (a :: b :: s) =
    (if [a] = py!"N" then ret (py!"NDB Navaid as Waypoint" ++ (b :: s))
      else match t042_0.lookup [a] with
        | some s => ret s
        | none => match t042_1.lookup [b] with
          | some s => ret s
          | none => ret (py!"Unknown Waypoint Type")) := rfl
  rw [key]
  split
  · exact ⟨_, rfl⟩
  · split
    · exact ⟨_, rfl⟩
    · split <;> exact ⟨_, rfl⟩

omit [PyUnicode] in
theorem ok_196 (v : Str) (hw : 2 ≤ v.length) : ∃ x, field_196 v = .ok x := by
  obtain ⟨a, b, s, rfl⟩ := two_cons hw
  have key : field_196 (a :: b :: s) =
    (match t196_0.lookup [a] with
        | some s => ret s
        | none => match t196_1.lookup [b] with
          | some s => ret s
          | none => ret (py!"Unknown Name Format Indicator")) := rfl
  rw [key]
  split
  · exact ⟨_, rfl⟩
  · split <;> exact ⟨_, rfl⟩

omit [PyUnicode] in
theorem ok_118 (v : Str) (hw : 2 ≤ v.length) : ∃ x, (field_118 v).1 = .ok x := by
  obtain ⟨a, b, s, rfl⟩ := two_cons hw
  unfold field_118
  simp only [index_cons_zero, index_cons_one]
  split
  · exact ⟨_, rfl⟩
  · split <;> exact ⟨_, rfl⟩

omit [PyUnicode] in
theorem ok_017 (v : Str) (hw : 4 ≤ v.length) : ∃ x, field_017 v = .ok x := by
  match v, hw with
  | a :: b :: c :: d :: s, _ => exact ⟨_, rfl⟩

/-- every decoder does what the domain says -/
theorem runDec_spec (fn : DecFn) (v : Str) (rec : RecInfo) (legs : Legs)
    (hw : widthOK fn v.length = true) : DecSpec fn v (runDec fn v rec legs).res := by
  cases fn
  case ident n =>
    refine total_spec rfl ⟨.str v, ?_⟩
    have : identityFns.contains n = true := hw
    simp only [runDec, this, if_true]; rfl
  case f002 => exact spec_mem2 .f002 v _ _ _ _ ⟨_, rfl⟩ ⟨_, rfl⟩ rfl rfl
  case f003 =>
    refine total_spec rfl ?_
    show ∃ x, field_003 v = .ok x
    unfold field_003; split <;> exact ⟨_, rfl⟩
  case f004 =>
    refine total_spec rfl ?_
    show ∃ x, field_004 v = .ok x
    unfold field_004; split <;> exact ⟨_, rfl⟩
  case f007 => exact total_spec rfl ⟨_, rfl⟩
  case f008 => exact spec_008 v
  case f009 =>
    refine total_spec rfl ?_
    show ∃ x, field_009 v = .ok x
    unfold field_009; split <;> exact ⟨_, rfl⟩
  case f010 =>
    refine total_spec rfl ?_
    cases v with
    | nil => simp [widthOK] at hw
    | cons c s => exact ⟨_, rfl⟩
  case f012 =>
    refine total_spec rfl ?_
    show ∃ x, field_012 v = .ok x
    unfold field_012; simp only; repeat' split
    all_goals exact ⟨_, rfl⟩
  case f016 =>
    refine total_spec rfl ?_
    show ∃ x, field_016 v = .ok x
    unfold field_016; repeat' split
    all_goals exact ⟨_, rfl⟩
  case f017 => exact total_spec rfl (ok_017 v (by simpa [widthOK] using hw))
  case f020 => exact spec_020 v
  case f021 => exact spec_021 v legs
  case f022 => exact spec_022 v
  case f023 => exact spec_str3 .f023 v rfl rfl
  case f024 => exact spec_str3 .f024 v rfl rfl
  case f025 => exact spec_str3 .f025 v rfl rfl
  case f026 => exact spec_026 v
  case f027 => exact spec_027 v
  case f032 => exact spec_032 v
  case f034 => exact spec_034 v _ _
  case f039 => exact spec_039 v (by simpa [widthOK] using hw)
  case f042 => exact total_spec rfl (ok_042 v (by simpa [widthOK] using hw))
  case f043 => exact total_spec rfl ⟨_, rfl⟩
  case f045 => exact spec_numfloat .f045 v _ _ (fun x => ⟨_, rfl⟩) rfl rfl
  case f049 =>
    refine total_spec rfl ?_
    show ∃ x, field_049 v = .ok x
    unfold field_049; repeat' split
    all_goals exact ⟨_, rfl⟩
  case f054 =>
    refine total_spec rfl ?_
    show ∃ x, field_054 v = .ok x
    unfold field_054; split <;> exact ⟨_, rfl⟩
  case f062 => exact spec_numfloat .f062 v _ _ (fun x => ⟨_, rfl⟩) rfl rfl
  case f065 =>
    refine total_spec rfl ?_
    show ∃ x, (field_065 v).1 = .ok x
    unfold field_065; repeat' split
    all_goals exact ⟨_, rfl⟩
  case f072 => exact spec_072 v
  case f082 => exact spec_082 v (by simpa [widthOK] using hw)
  case f091 =>
    refine total_spec rfl ?_
    show ∃ x, field_091 v = .ok x
    unfold field_091; split <;> exact ⟨_, rfl⟩
  case f101 => exact total_spec rfl ⟨_, rfl⟩
  case f102 =>
    refine total_spec rfl ?_
    show ∃ x, field_102 v = .ok x
    unfold field_102; repeat' split
    all_goals exact ⟨_, rfl⟩
  case f103 => exact spec_numfloat .f103 v _ _ (fun x => ⟨_, rfl⟩) rfl rfl
  case f104 => exact total_spec rfl ⟨_, rfl⟩
  case f106 =>
    refine total_spec rfl ?_
    show ∃ x, field_106 v = .ok x
    unfold field_106; split <;> exact ⟨_, rfl⟩
  case f108 => exact spec_mem2 .f108 v _ _ _ _ ⟨_, rfl⟩ ⟨_, rfl⟩ rfl rfl
  case f112 =>
    refine total_spec rfl ?_
    show ∃ x, field_112 v = .ok x
    unfold field_112; repeat' split
    all_goals exact ⟨_, rfl⟩
  case f113 =>
    refine total_spec rfl ?_
    show ∃ x, field_113 v = .ok x
    unfold field_113; repeat' split
    all_goals exact ⟨_, rfl⟩
  case f117 =>
    refine total_spec rfl ?_
    show ∃ x, field_117 v = .ok x
    unfold field_117; repeat' split
    all_goals exact ⟨_, rfl⟩
  case f118 => exact total_spec rfl (ok_118 v (by simpa [widthOK] using hw))
  case f135 => exact spec_numfloat .f135 v _ _ (fun x => ⟨_, rfl⟩) rfl rfl
  case f165 =>
    refine total_spec rfl ?_
    show ∃ x, field_165 v = .ok x
    unfold field_165; repeat' split
    all_goals exact ⟨_, rfl⟩
  case f177 =>
    refine total_spec rfl ?_
    show ∃ x, field_177 v = .ok x
    unfold field_177; repeat' split
    all_goals exact ⟨_, rfl⟩
  case f178 => exact spec_178 v (by simpa [widthOK] using hw)
  case f179 =>
    refine total_spec rfl ?_
    show ∃ x, field_179 v = .ok x
    unfold field_179; repeat' split
    all_goals exact ⟨_, rfl⟩
  case f181 => exact total_spec rfl ⟨_, rfl⟩
  case f182 => exact spec_182 v
  case f196 => exact total_spec rfl (ok_196 v (by simpa [widthOK] using hw))
  case f198 => exact total_spec rfl ⟨_, rfl⟩
  case f199 =>
    refine total_spec rfl ?_
    show ∃ x, field_199 v = .ok x
    unfold field_199; split <;> exact ⟨_, rfl⟩
  case f269 => exact spec_269 v
  case f270 => exact spec_270 v
  all_goals exact total_spec rfl (feet_ok v)

end
end Arinc
