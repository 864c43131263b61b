import Verif.Spec.Number
import Verif.Lemmas.Num
/-! Helper lemmas: `int` and `float` accept the grammar of `Spec/Number.lean`. -/
namespace Py
open Spec

section
variable [PyUnicode]

/-! ### characters -/

theorem toAscii_dec {c d : Nat} (h : PyUnicode.decimal c = some d) : toAscii c = 48 + d := by
  unfold toAscii
  split
  · next h1 =>
    rw [PyUnicode.decimal_ascii c (by omega)] at h
    split at h
    · cases h; omega
    · cases h
  · rw [PyUnicode.numeric_not_space c (PyUnicode.decimal_numeric c d h), h]; rfl

theorem isDigit_toAscii {c : Nat} : isDigit (toAscii c) = true ↔ IsDec c := by
  constructor
  · intro h
    rw [isDigit_iff] at h
    unfold toAscii at h
    split at h
    · next h1 =>
      refine ⟨c - 48, ?_⟩
      rw [PyUnicode.decimal_ascii c (by omega), if_pos h]
    · split at h
      · omega
      · split at h
        · next d hd => exact ⟨d, hd⟩
        · omega
  · rintro ⟨d, hd⟩
    rw [toAscii_dec hd, isDigit_iff]
    have := PyUnicode.decimal_lt c d hd
    omega

theorem toAscii_special {c y : Nat} (h1 : y < 127) (h2 : isDigit y = false) (h3 : y ≠ 32) (h4 : y ≠ 63) :
    toAscii c = y ↔ c = y := by
  constructor
  · intro h
    unfold toAscii at h
    split at h
    · exact h
    · split at h
      · omega
      · split at h
        · next d hd =>
          have := PyUnicode.decimal_lt c d hd
          have : isDigit y = true := isDigit_iff.2 (by omega)
          rw [this] at h2; cases h2
        · omega
  · rintro rfl; exact toAscii_lt h1

theorem cSpace_toAscii {c : Nat} : cSpace (toAscii c) = true ↔ NumSpace c := by
  unfold toAscii NumSpace
  split
  · next h =>
    simp only [cSpace, isSpace, Bool.or_eq_true, Bool.and_eq_true, decide_eq_true_eq, beq_iff_eq]
    omega
  · next h =>
    split
    · next h2 => simp only [h2, true_and, show cSpace 32 = true from rfl, true_iff]; omega
    · next h2 =>
      refine iff_of_false ?_ (fun h => h2 h.1)
      split
      · next d hd =>
        have := PyUnicode.decimal_lt c d hd
        simp only [cSpace, Bool.or_eq_true, Bool.and_eq_true, decide_eq_true_eq, beq_iff_eq]
        omega
      · decide

theorem dec_not_space {c : Nat} (h : IsDec c) : ¬ NumSpace c := by
  obtain ⟨d, hd⟩ := h
  intro hs
  have := PyUnicode.numeric_not_space c (PyUnicode.decimal_numeric c d hd)
  rw [hs.1] at this; cases this

theorem dec_ascii {c : Nat} (h : IsDec c) (hc : c < 128) : 48 ≤ c ∧ c ≤ 57 := by
  obtain ⟨d, hd⟩ := h
  rw [PyUnicode.decimal_ascii c hc] at hd
  split at hd
  · assumption
  · cases hd

/-! ### white space -/

/-- `s` without the white space around it -/
def nstrip (s : Str) : Str := ((s.dropWhile (cSpace ∘ toAscii)).reverse.dropWhile (cSpace ∘ toAscii)).reverse

theorem cStrip_map (s : Str) : cStrip (s.map toAscii) = (nstrip s).map toAscii := by
  unfold cStrip nstrip
  rw [List.dropWhile_map, ← List.map_reverse, List.dropWhile_map, ← List.map_reverse]

theorem spaced_nstrip (s : Str) : Spaced s (nstrip s) := by
  have key : ∀ u : Str, ∃ pre, u = pre ++ u.dropWhile (cSpace ∘ toAscii) ∧ ∀ c ∈ pre, NumSpace c := by
    intro u
    refine ⟨u.takeWhile (cSpace ∘ toAscii), (List.takeWhile_append_dropWhile).symm, fun c hc => ?_⟩
    exact cSpace_toAscii.1 (by simpa using List.all_eq_true.1 (List.all_takeWhile (p := cSpace ∘ toAscii)) c hc)
  obtain ⟨pre, h1, h2⟩ := key s
  obtain ⟨post, h3, h4⟩ := key (s.dropWhile (cSpace ∘ toAscii)).reverse
  refine ⟨pre, post.reverse, ?_, h2, fun c hc => h4 c (by simpa using hc)⟩
  unfold nstrip
  have := congrArg List.reverse h3
  rw [List.reverse_reverse, List.reverse_append] at this
  rw [List.append_assoc, ← this]
  exact h1

theorem nstrip_spaced {s t : Str} (h : Spaced s t) (h1 : ∀ c, t.head? = some c → ¬ NumSpace c)
    (h2 : ∀ c, t.getLast? = some c → ¬ NumSpace c) (h3 : t ≠ []) : nstrip s = t := by
  obtain ⟨pre, post, rfl, hpre, hpost⟩ := h
  have key : ∀ p u : Str, (∀ c ∈ p, NumSpace c) → u ≠ [] → (∀ c, u.head? = some c → ¬ NumSpace c) →
      (p ++ u).dropWhile (cSpace ∘ toAscii) = u := by
    intro p u hp hu hh
    rw [List.dropWhile_append_of_pos (p := cSpace ∘ toAscii) (fun c hc => cSpace_toAscii.2 (hp c hc))]
    cases u with
    | nil => exact absurd rfl hu
    | cons c u =>
      rw [List.dropWhile_cons, if_neg]
      exact fun h => hh c rfl (cSpace_toAscii.1 h)
  unfold nstrip
  rw [List.append_assoc, key pre (t ++ post) hpre (by simp [h3])
    (fun c hc => h1 c (by rw [List.head?_append] at hc; cases t with
      | nil => exact absurd rfl h3
      | cons a t => exact hc)),
    List.reverse_append, key post.reverse t.reverse (fun c hc => hpost c (by simpa using hc))
      (by simpa using h3) (fun c hc => h2 c (by simpa using hc)), List.reverse_reverse]

/-! ### underscores -/

theorem ne95 {c : Nat} : toAscii c = 95 ↔ c = 95 := toAscii_special (by omega) (by decide) (by omega) (by omega)

theorem grouped_not_under {s t : Str} (h : Grouped (95 :: s) t) : False := by
  cases h with
  | plain hc _ => exact hc rfl
  | group hc _ _ => exact absurd (dec_ascii hc (by omega)) (by omega)

omit [PyUnicode] in
theorem dropUnderscores_prev {p q : Nat} {s : Str} (hp : p ≠ 95) (hq : q ≠ 95)
    (h : ∀ u, s ≠ 95 :: u) : dropUnderscores p s = dropUnderscores q s := by
  cases s with
  | nil => simp [dropUnderscores, hp, hq]
  | cons c s =>
    have hc : (c == 95) = false := by
      simp only [beq_eq_false_iff_ne]; intro e; exact h s (by rw [e])
    have h1 : (p == 95) = false := by simpa using hp
    have h2 : (q == 95) = false := by simpa using hq
    simp [dropUnderscores, hc, h1, h2]

theorem grouped_iff (s : Str) : ∀ b, dropUnderscores 0 (s.map toAscii) = some b ↔
    ∃ t, b = t.map toAscii ∧ Grouped s t := by
  induction hn : s.length using Nat.strongRecOn generalizing s with
  | _ n ih =>
    subst hn
    intro b
    match s with
    | [] =>
      constructor
      · intro h
        simp only [List.map_nil, dropUnderscores] at h
        cases h
        exact ⟨[], rfl, .nil⟩
      · rintro ⟨t, rfl, ht⟩
        cases ht
        rfl
    | c :: s =>
      by_cases hc : c = 95
      · subst hc
        constructor
        · intro h
          have e : toAscii 95 = 95 := ne95.2 rfl
          simp only [List.map_cons, e, dropUnderscores] at h
          cases h
        · rintro ⟨t, _, ht⟩
          exact (grouped_not_under ht).elim
      · have hc' : (toAscii c == 95) = false := by
          simp only [beq_eq_false_iff_ne]; exact fun e => hc (ne95.1 e)
        have h0 : dropUnderscores 0 ((c :: s).map toAscii) =
            (dropUnderscores (toAscii c) (s.map toAscii)).map (toAscii c :: ·) := by
          simp [dropUnderscores, hc']
        have hcn : toAscii c ≠ 95 := fun e => hc (ne95.1 e)
        rw [h0]
        match s with
        | [] =>
          constructor
          · intro h
            simp only [List.map_nil, dropUnderscores, hc', Bool.false_eq_true, if_false, Option.map_some] at h
            cases h
            exact ⟨[c], rfl, .plain hc .nil⟩
          · rintro ⟨t, rfl, ht⟩
            cases ht with
            | plain _ ht =>
              cases ht
              simp [dropUnderscores, hc']
        | e :: s =>
          by_cases he : e = 95
          · subst he
            have e95 : toAscii 95 = 95 := ne95.2 rfl
            simp only [List.map_cons, e95]
            by_cases hd : isDigit (toAscii c) = true
            · have h1 : dropUnderscores (toAscii c) (95 :: s.map toAscii) = dropUnderscores 95 (s.map toAscii) := by
                simp [dropUnderscores, hd]
              rw [h1]
              match s with
              | [] =>
                constructor
                · intro h; simp [dropUnderscores] at h
                · rintro ⟨t, _, ht⟩
                  cases ht with
                  | plain _ ht => exact (grouped_not_under ht).elim
              | d :: s =>
                by_cases hdd : isDigit (toAscii d) = true
                · have hdn : toAscii d ≠ 95 := by
                    intro e; rw [e] at hdd; exact absurd hdd (by decide)
                  have h2 : dropUnderscores 95 ((d :: s).map toAscii) =
                      dropUnderscores 0 ((d :: s).map toAscii) := by
                    have : (toAscii d == 95) = false := by simpa using hdn
                    simp [dropUnderscores, this, hdd]
                  rw [h2, Option.map_eq_some_iff]
                  constructor
                  · rintro ⟨b', hb, rfl⟩
                    obtain ⟨t, rfl, ht⟩ := (ih (s.length + 1) (by simp) (d :: s) rfl b').1 hb
                    exact ⟨c :: t, rfl, .group (isDigit_toAscii.1 hd) (isDigit_toAscii.1 hdd) ht⟩
                  · rintro ⟨t, rfl, ht⟩
                    cases ht with
                    | plain _ ht => exact (grouped_not_under ht).elim
                    | group _ _ ht =>
                      exact ⟨_, (ih (s.length + 1) (by simp) (d :: s) rfl _).2 ⟨_, rfl, ht⟩, rfl⟩
                · have hdd' : isDigit (toAscii d) = false := by simpa using hdd
                  constructor
                  · intro h
                    have : dropUnderscores 95 ((d :: s).map toAscii) = none := by
                      simp only [List.map_cons, dropUnderscores, hdd']
                      split
                      · rfl
                      · rfl
                    rw [this] at h; cases h
                  · rintro ⟨t, _, ht⟩
                    cases ht with
                    | plain _ ht => exact (grouped_not_under ht).elim
                    | group _ hd' _ => exact absurd (isDigit_toAscii.2 hd') hdd
            · have hd' : isDigit (toAscii c) = false := by simpa using hd
              constructor
              · intro h
                simp [dropUnderscores, hd'] at h
              · rintro ⟨t, _, ht⟩
                cases ht with
                | plain _ ht => exact (grouped_not_under ht).elim
                | group hc' _ _ => exact absurd (isDigit_toAscii.2 hc') hd
          · have hcons : ∀ u, (e :: s).map toAscii ≠ 95 :: u := by
              intro u hu
              simp only [List.map_cons, List.cons.injEq] at hu
              exact he (ne95.1 hu.1)
            rw [dropUnderscores_prev hcn (q := 0) (by omega) hcons, Option.map_eq_some_iff]
            constructor
            · rintro ⟨b', hb, rfl⟩
              obtain ⟨t, rfl, ht⟩ := (ih (s.length + 1) (by simp) (e :: s) rfl b').1 hb
              exact ⟨c :: t, rfl, .plain hc ht⟩
            · rintro ⟨t, rfl, ht⟩
              cases ht with
              | plain _ ht => exact ⟨_, (ih (s.length + 1) (by simp) (e :: s) rfl _).2 ⟨_, rfl, ht⟩, rfl⟩
              | group _ _ _ => exact absurd rfl he

/-! ### signs -/

theorem takeSign_sign {s : Str} : ∃ sg u, s = sg ++ u ∧ Sign sg (takeSign (s.map toAscii)).1 ∧
    (takeSign (s.map toAscii)).2 = u.map toAscii := by
  have h45 : ∀ c, toAscii c = 45 ↔ c = 45 := fun c => toAscii_special (by omega) (by decide) (by omega) (by omega)
  have h43 : ∀ c, toAscii c = 43 ↔ c = 43 := fun c => toAscii_special (by omega) (by decide) (by omega) (by omega)
  match s with
  | [] => exact ⟨[], [], rfl, .none, rfl⟩
  | c :: s =>
    by_cases h1 : c = 45
    · subst h1
      rw [List.map_cons, (h45 45).2 rfl]
      exact ⟨[45], s, rfl, .minus, rfl⟩
    · by_cases h2 : c = 43
      · subst h2
        rw [List.map_cons, (h43 43).2 rfl]
        exact ⟨[43], s, rfl, .plus, rfl⟩
      · have : takeSign ((c :: s).map toAscii) = (false, (c :: s).map toAscii) := by
          unfold takeSign
          split
          · next h => simp only [List.map_cons, List.cons.injEq] at h; exact absurd ((h45 c).1 h.1) h1
          · next h => simp only [List.map_cons, List.cons.injEq] at h; exact absurd ((h43 c).1 h.1) h2
          · rfl
        rw [this]
        exact ⟨[], c :: s, rfl, .none, rfl⟩

theorem takeSign_of {sg u : Str} {neg : Bool} (h : Sign sg neg) (hu : ∀ c, u.head? = some c → c ≠ 43 ∧ c ≠ 45) :
    takeSign ((sg ++ u).map toAscii) = (neg, u.map toAscii) := by
  have h45 : toAscii 45 = 45 := toAscii_lt (by omega)
  have h43 : toAscii 43 = 43 := toAscii_lt (by omega)
  cases h with
  | none =>
    rw [List.nil_append]
    match u with
    | [] => rfl
    | c :: u =>
      obtain ⟨h1, h2⟩ := hu c rfl
      unfold takeSign
      split
      · next h =>
        simp only [List.map_cons, List.cons.injEq] at h
        exact absurd ((toAscii_special (by omega) (by decide) (by omega) (by omega)).1 h.1) h2
      · next h =>
        simp only [List.map_cons, List.cons.injEq] at h
        exact absurd ((toAscii_special (by omega) (by decide) (by omega) (by omega)).1 h.1) h1
      · rfl
  | plus => show takeSign (toAscii 43 :: u.map toAscii) = _; rw [h43]; rfl
  | minus => show takeSign (toAscii 45 :: u.map toAscii) = _; rw [h45]; rfl

/-! ### digits -/

theorem denote_val {ds : Str} {n : Nat} (h : DigitsDenote ds n) :
    DecDigits ds ∧ digitsVal (ds.map toAscii) = n := by
  induction h with
  | nil => exact ⟨fun _ h => absurd h (List.not_mem_nil), rfl⟩
  | snoc h hc ih =>
    refine ⟨fun c hm => ?_, ?_⟩
    · rw [List.mem_append, List.mem_singleton] at hm
      rcases hm with hm | rfl
      · exact ih.1 c hm
      · exact ⟨_, hc⟩
    · unfold digitsVal at ih ⊢
      rw [List.map_append, List.foldl_append, ih.2]
      simp only [List.map_cons, List.map_nil, List.foldl_cons, List.foldl_nil, toAscii_dec hc]
      omega

theorem val_denote {ds : Str} (h : DecDigits ds) : DigitsDenote ds (digitsVal (ds.map toAscii)) := by
  induction hr : ds.reverse generalizing ds with
  | nil =>
    have : ds = [] := by simpa using hr
    subst this; exact .nil
  | cons c rs ih =>
    have hds : ds = rs.reverse ++ [c] := by
      have := congrArg List.reverse hr
      simpa using this
    subst hds
    have h1 := ih (ds := rs.reverse) (fun x hx => h x (by simp only [List.mem_append]; exact .inl hx)) (by simp)
    obtain ⟨d, hd⟩ := h c (by simp)
    have h2 := DigitsDenote.snoc h1 hd
    have h3 := (denote_val h2).2
    rw [h3]; exact h2

theorem all_digit_iff {ds : Str} : (ds.map toAscii).all isDigit = true ↔ DecDigits ds := by
  simp only [List.all_map, List.all_eq_true, Function.comp_apply, DecDigits]
  exact ⟨fun h c hc => isDigit_toAscii.1 (h c hc), fun h c hc => isDigit_toAscii.2 (h c hc)⟩

theorem dec_head {ds : Str} (h : DecDigits ds) : ∀ c, ds.head? = some c → c ≠ 43 ∧ c ≠ 45 := by
  intro c hc
  have := h c (List.mem_of_mem_head? hc)
  exact ⟨fun e => absurd (dec_ascii this (by omega)) (by omega), fun e => absurd (dec_ascii this (by omega)) (by omega)⟩

omit [PyUnicode] in
theorem signed_eq (neg : Bool) (n : Nat) :
    (if neg = true then -(n : Int) else (n : Int)) = signed neg n := rfl

/-! ### `int` -/

theorem grouped_nil {s : Str} (h : Grouped s []) : s = [] := by cases h; rfl

theorem grouped_head {s t : Str} (h : Grouped s t) : s.head? = t.head? := by
  cases h <;> rfl

theorem grouped_last {s t : Str} (h : Grouped s t) : s.getLast? = t.getLast? := by
  induction h with
  | nil => rfl
  | @plain c s t hc h ih =>
    cases s with
    | nil => cases h; rfl
    | cons a s =>
      cases t with
      | nil => cases h
      | cons b t => rw [List.getLast?_cons_cons, List.getLast?_cons_cons]; exact ih
  | @group c d s t hc hd h ih =>
    cases t with
    | nil => cases h
    | cons b t =>
      rw [List.getLast?_cons_cons, List.getLast?_cons_cons, List.getLast?_cons_cons]; exact ih

omit [PyUnicode] in
theorem sign_head {sg u : Str} {neg : Bool} (h : Sign sg neg) {c : Nat} (hc : (sg ++ u).head? = some c)
    (hu : ∀ c, u.head? = some c → ¬ NumSpace c) : ¬ NumSpace c := by
  cases h with
  | none => exact hu c hc
  | plus => cases hc; exact fun h => absurd h.1 (by decide)
  | minus => cases hc; exact fun h => absurd h.1 (by decide)

omit [PyUnicode] in
theorem last_append {sg u : Str} (hu : u ≠ []) : (sg ++ u).getLast? = u.getLast? := by
  rw [List.getLast?_append]
  cases h : u.getLast? with
  | none => exact absurd (List.getLast?_eq_none_iff.1 h) hu
  | some c => rfl

theorem pyInt_iff {s : Str} {i : Int} : pyInt s = .ok i ↔ IntText s i := by
  unfold pyInt
  rw [cStrip_map]
  constructor
  · intro h
    obtain ⟨sg, u, hsu, hsg, hu⟩ := takeSign_sign (s := nstrip s)
    simp only [hu] at h
    split at h
    · cases h
    · next ds hds =>
      obtain ⟨t, rfl, ht⟩ := (grouped_iff u ds).1 hds
      split at h
      · next hc =>
        simp only [Bool.and_eq_true, Bool.not_eq_true', List.isEmpty_eq_false_iff, decide_eq_true_eq] at hc
        cases h
        exact .mk (spaced_nstrip s) hsu hsg ht (by simpa using hc.1.1) (by simpa [maxStrDigits] using hc.2)
          (val_denote (all_digit_iff.1 hc.1.2))
      · cases h
  · rintro ⟨hs, rfl, hsg, hg, hne, hl, hn⟩
    rename_i sg g ds neg n
    obtain ⟨hdec, hval⟩ := denote_val hn
    have hgne : g ≠ [] := by
      intro e; subst e; cases hg; exact hne rfl
    have hgh : ∀ c, g.head? = some c → ¬ NumSpace c := by
      intro c hc
      rw [grouped_head hg] at hc
      exact dec_not_space (hdec c (List.mem_of_mem_head? hc))
    have hst : nstrip s = sg ++ g := by
      refine nstrip_spaced hs (fun c hc => sign_head hsg hc hgh) (fun c hc => ?_) (by simp [hgne])
      rw [last_append hgne, grouped_last hg] at hc
      exact dec_not_space (hdec c (List.mem_of_getLast? hc))
    have hts := takeSign_of hsg (u := g) (fun c hc => by
      rw [grouped_head hg] at hc; exact dec_head hdec c hc)
    simp only [hst, hts, (grouped_iff g _).2 ⟨ds, rfl, hg⟩]
    rw [if_pos]
    · rw [hval, signed_eq]
    · simp only [Bool.and_eq_true, Bool.not_eq_true', List.isEmpty_eq_false_iff, decide_eq_true_eq]
      exact ⟨⟨by simpa using hne, all_digit_iff.2 hdec⟩, by simpa [maxStrDigits] using hl⟩

/-! ### `float` -/

theorem parseExp_iff {s : Str} {e : Int} : parseExp (s.map toAscii) = some e ↔ ExpText s e := by
  have h101 : ∀ c, toAscii c = 101 ↔ c = 101 := fun c => toAscii_special (by omega) (by decide) (by omega) (by omega)
  have h69 : ∀ c, toAscii c = 69 ↔ c = 69 := fun c => toAscii_special (by omega) (by decide) (by omega) (by omega)
  match s with
  | [] =>
    constructor
    · intro h; cases h; exact .none
    · intro h; cases h; rfl
  | c :: s =>
    simp only [List.map_cons, parseExp]
    constructor
    · intro h
      split at h
      · next hc =>
        simp only [Bool.or_eq_true, beq_iff_eq, h101, h69] at hc
        obtain ⟨sg, u, rfl, hsg, hu⟩ := takeSign_sign (s := s)
        simp only [hu] at h
        split at h
        · next hd =>
          simp only [Bool.and_eq_true, Bool.not_eq_true', List.isEmpty_eq_false_iff] at hd
          cases h
          exact .some hc hsg (by simpa using hd.1) (val_denote (all_digit_iff.1 hd.2))
        · cases h
      · cases h
    · intro h
      cases h with
      | some he hsg hne hn =>
        obtain ⟨hdec, hval⟩ := denote_val hn
        rw [if_pos (by simpa [h101, h69] using he)]
        simp only [takeSign_of hsg (dec_head hdec)]
        rw [if_pos]
        · rw [hval, signed_eq]
        · simp only [Bool.and_eq_true, Bool.not_eq_true', List.isEmpty_eq_false_iff]
          exact ⟨by simpa using hne, all_digit_iff.2 hdec⟩

theorem takeWhile_dec {ds r : Str} (h : DecDigits ds) (hr : ∀ c, r.head? = some c → ¬ IsDec c) :
    ((ds ++ r).map toAscii).takeWhile isDigit = ds.map toAscii ∧
    ((ds ++ r).map toAscii).dropWhile isDigit = r.map toAscii := by
  induction ds with
  | nil =>
    cases r with
    | nil => exact ⟨rfl, rfl⟩
    | cons c r =>
      have : isDigit (toAscii c) = false := by
        rw [Bool.eq_false_iff]; exact fun e => hr c rfl (isDigit_toAscii.1 e)
      simp [this]
  | cons c ds ih =>
    have hc : isDigit (toAscii c) = true := isDigit_toAscii.2 (h c (by simp))
    obtain ⟨h1, h2⟩ := ih (fun d hd => h d (by simp [hd]))
    simp only [List.cons_append, List.map_cons, List.takeWhile_cons, List.dropWhile_cons, hc, if_true, h1, h2]
    exact ⟨trivial, trivial⟩

theorem split_dec (s : Str) : ∃ ds r, s = ds ++ r ∧ DecDigits ds ∧ ∀ c, r.head? = some c → ¬ IsDec c := by
  induction s with
  | nil => exact ⟨[], [], rfl, fun _ h => absurd h List.not_mem_nil, fun _ h => by cases h⟩
  | cons c s ih =>
    by_cases hc : IsDec c
    · obtain ⟨ds, r, rfl, h1, h2⟩ := ih
      refine ⟨c :: ds, r, rfl, fun d hd => ?_, h2⟩
      rcases List.mem_cons.1 hd with rfl | hd
      · exact hc
      · exact h1 d hd
    · refine ⟨[], c :: s, rfl, fun _ h => absurd h List.not_mem_nil, fun d hd => ?_⟩
      cases hd; exact hc

theorem exp_head {ex : Str} {e : Int} (h : ExpText ex e) : ∀ c, ex.head? = some c → c = 101 ∨ c = 69 := by
  intro c hc
  cases h with
  | none => cases hc
  | some he _ _ _ => cases hc; exact he

theorem exp_not_dec {ex : Str} {e : Int} (h : ExpText ex e) : ∀ c, ex.head? = some c → ¬ IsDec c := by
  intro c hc hd
  rcases exp_head h c hc with rfl | rfl <;> exact absurd (dec_ascii hd (by omega)) (by omega)

theorem parseDecimal_noPoint {ds r : Str} (h : DecDigits ds) (hr : ∀ c, r.head? = some c → ¬ IsDec c)
    (hp : ∀ u, r ≠ 46 :: u) : parseDecimal ((ds ++ r).map toAscii) =
      if ds = [] then none else (parseExp (r.map toAscii)).map (fun e => (digitsVal (ds.map toAscii), e)) := by
  unfold parseDecimal
  obtain ⟨h1, h2⟩ := takeWhile_dec h hr
  have h46 : ∀ c, toAscii c = 46 ↔ c = 46 := fun c => toAscii_special (by omega) (by decide) (by omega) (by omega)
  simp only [h1, h2]
  have hm : ∀ u, r.map toAscii ≠ 46 :: u := by
    intro u hu
    cases r with
    | nil => cases hu
    | cons c r =>
      simp only [List.map_cons, List.cons.injEq] at hu
      exact hp r (by rw [(h46 c).1 hu.1])
  generalize r.map toAscii = q at hm
  have hds : ((ds.map toAscii).isEmpty = true) = (ds = []) := by simp
  cases q with
  | nil =>
    simp only [List.isEmpty_nil, Bool.and_true, hds, List.append_nil, List.length_nil]
    split
    · rfl
    · congr 1; funext e; simp
  | cons c q =>
    have hc : c ≠ 46 := fun e => hm q (by rw [e])
    simp only [List.isEmpty_nil, Bool.and_true, hds, List.append_nil, List.length_nil]
    split
    · rfl
    · congr 1; funext e; simp

theorem parseDecimal_point {ds fs r : Str} (h : DecDigits ds) (hf : DecDigits fs)
    (hr : ∀ c, r.head? = some c → ¬ IsDec c) : parseDecimal ((ds ++ 46 :: (fs ++ r)).map toAscii) =
      if ds ++ fs = [] then none
      else (parseExp (r.map toAscii)).map (fun e : Int => (digitsVal ((ds ++ fs).map toAscii), e - (fs.length : Int))) := by
  unfold parseDecimal
  have h46 : toAscii 46 = 46 := toAscii_lt (by omega)
  obtain ⟨h1, h2⟩ := takeWhile_dec (r := 46 :: (fs ++ r)) h (fun c hc hd => by
    cases hc; exact absurd (dec_ascii hd (by omega)) (by omega))
  obtain ⟨h3, h4⟩ := takeWhile_dec hf hr
  rw [List.map_cons, h46] at h2
  simp only [h1, h2, h3, h4]
  by_cases hd : ds ++ fs = []
  · rw [if_pos hd]
    rw [List.append_eq_nil_iff] at hd
    obtain ⟨rfl, rfl⟩ := hd
    rfl
  · rw [if_neg hd, if_neg]
    · rw [← List.map_append, List.length_map]
    · simp only [Bool.and_eq_true, List.isEmpty_iff, List.map_eq_nil_iff]
      rintro ⟨rfl, rfl⟩; exact hd rfl

theorem parseDecimal_iff {s : Str} {n : Nat} {k : Int} :
    parseDecimal (s.map toAscii) = some (n, k) ↔ DecimalText s n k := by
  constructor
  · intro h
    obtain ⟨ds, r, rfl, hds, hr⟩ := split_dec s
    by_cases hp : ∃ u, r = 46 :: u
    · obtain ⟨u, rfl⟩ := hp
      obtain ⟨fs, ex, rfl, hfs, hex⟩ := split_dec u
      rw [parseDecimal_point hds hfs hex] at h
      split at h
      · cases h
      · next hne =>
        rw [Option.map_eq_some_iff] at h
        obtain ⟨e, he, h⟩ := h
        cases h
        exact .point hne (val_denote (fun c hc => by
          rcases List.mem_append.1 hc with hc | hc
          · exact hds c hc
          · exact hfs c hc)) (parseExp_iff.1 he)
    · have hp' : ∀ u, r ≠ 46 :: u := fun u e => hp ⟨u, e⟩
      rw [parseDecimal_noPoint hds hr hp'] at h
      split at h
      · cases h
      · next hne =>
        rw [Option.map_eq_some_iff] at h
        obtain ⟨e, he, h⟩ := h
        cases h
        exact .whole hne (val_denote hds) (parseExp_iff.1 he)
  · intro h
    cases h with
    | whole hne hn he =>
      obtain ⟨hdec, hval⟩ := denote_val hn
      rw [parseDecimal_noPoint hdec (exp_not_dec he) (fun u e => by
        subst e; rcases exp_head he 46 rfl with h | h <;> omega), if_neg hne, parseExp_iff.2 he, hval]
      rfl
    | point hne hn he =>
      obtain ⟨hdec, hval⟩ := denote_val hn
      rw [parseDecimal_point (fun c hc => hdec c (List.mem_append.2 (.inl hc)))
        (fun c hc => hdec c (List.mem_append.2 (.inr hc))) (exp_not_dec he), if_neg hne, parseExp_iff.2 he, hval]
      rfl

theorem asciiLower_letter {c y : Nat} (hy : 97 ≤ y ∧ y ≤ 122) :
    asciiLower (toAscii c) = y ↔ asciiLower c = y := by
  have key : ∀ x, asciiLower x = y ↔ x = y ∨ x = y - 32 := by
    intro x
    simp only [asciiLower, Bool.and_eq_true, decide_eq_true_eq]
    split <;> omega
  have hd : ∀ z, 58 ≤ z → isDigit z = false := by
    intro z hz; rw [Bool.eq_false_iff]; intro h; rw [isDigit_iff] at h; omega
  rw [key, key, toAscii_special (by omega) (hd _ (by omega)) (by omega) (by omega),
    toAscii_special (by omega) (hd _ (by omega)) (by omega) (by omega)]

theorem sameWord_map {w : Str} (hw : ∀ c ∈ w, 97 ≤ c ∧ c ≤ 122) {s : Str} :
    (s.map toAscii).map asciiLower = w ↔ SameWord s w := by
  unfold SameWord
  induction s generalizing w with
  | nil => rfl
  | cons c s ih =>
    cases w with
    | nil => simp
    | cons y w =>
      simp only [List.map_cons, List.cons.injEq]
      rw [asciiLower_letter (hw y (by simp)), ih (fun d hd => hw d (by simp [hd]))]

omit [PyUnicode] in
theorem word_ends {s w : Str} (hw : ∀ c ∈ w, 97 ≤ c ∧ c ≤ 122) (h : SameWord s w) : ∀ c ∈ s, 65 ≤ c ∧ c ≤ 122 := by
  intro c hc
  have : asciiLower c ∈ w := by rw [← h]; exact List.mem_map_of_mem hc
  have := hw _ this
  unfold asciiLower at this
  split at this
  · next h => simp at h; omega
  · omega

omit [PyUnicode] in
theorem letter_not_space {c : Nat} (h : 33 ≤ c ∧ c ≤ 122) : ¬ NumSpace c := by
  intro hs
  have := hs.1
  simp only [isSpace, Bool.or_eq_true, Bool.and_eq_true, decide_eq_true_eq, beq_iff_eq] at this
  omega

theorem decimalText_ends {u : Str} {n : Nat} {k : Int} (h : DecimalText u n k) : u ≠ [] ∧
    (∀ c, u.head? = some c → IsDec c ∨ c = 46) ∧ ∀ c, u.getLast? = some c → IsDec c ∨ c = 46 := by
  have hexlast : ∀ {ex : Str} {e : Int}, ExpText ex e → ∀ c, ex.getLast? = some c → IsDec c := by
    intro ex e he c hc
    cases he with
    | none => cases hc
    | @some e sg ds neg n he hsg hne hn =>
      have : (e :: (sg ++ ds)) = ([e] ++ sg) ++ ds := by simp
      rw [this, last_append hne] at hc
      exact (denote_val hn).1 c (List.mem_of_getLast? hc)
  have hexne : ∀ {ex : Str} {e : Int}, ExpText ex e → ∀ (ds : Str) (c : Nat), (ds ++ ex).getLast? = some c →
      IsDec c ∨ ds.getLast? = some c := by
    intro ex e he ds c hc
    by_cases hx : ex = []
    · subst hx; rw [List.append_nil] at hc; exact .inr hc
    · rw [last_append hx] at hc; exact .inl (hexlast he c hc)
  cases h with
  | @whole ds ex n e hne hn he =>
    have hdec := (denote_val hn).1
    refine ⟨by simp [hne], fun c hc => ?_, fun c hc => ?_⟩
    · cases ds with
      | nil => exact absurd rfl hne
      | cons d ds => cases hc; exact .inl (hdec _ (by simp))
    · rcases hexne he ds c hc with h | h
      · exact .inl h
      · exact .inl (hdec c (List.mem_of_getLast? h))
  | @point ds fs ex n e hne hn he =>
    have hdec := (denote_val hn).1
    refine ⟨by simp, fun c hc => ?_, fun c hc => ?_⟩
    · cases ds with
      | nil => cases hc; exact .inr rfl
      | cons d ds => cases hc; exact .inl (hdec _ (by simp))
    · have : ds ++ 46 :: (fs ++ ex) = (ds ++ 46 :: fs) ++ ex := by simp
      rw [this] at hc
      rcases hexne he _ c hc with h | h
      · exact .inl h
      · by_cases hf : fs = []
        · subst hf
          rw [List.getLast?_append] at h
          simp at h
          exact .inr h.symm
        · have : ds ++ 46 :: fs = (ds ++ [46]) ++ fs := by simp
          rw [this, last_append hf] at h
          exact .inl (hdec c (List.mem_append.2 (.inr (List.mem_of_getLast? h))))

theorem unsigned_ends {u : Str} {neg : Bool} {l : Lit} (h : Unsigned neg u l) : u ≠ [] ∧
    (∀ c, u.head? = some c → ¬ NumSpace c ∧ c ≠ 43 ∧ c ≠ 45) ∧ ∀ c, u.getLast? = some c → ¬ NumSpace c := by
  have word : ∀ {w : Str}, w ≠ [] → (∀ c ∈ w, 97 ≤ c ∧ c ≤ 122) → SameWord u w → u ≠ [] ∧
    (∀ c, u.head? = some c → ¬ NumSpace c ∧ c ≠ 43 ∧ c ≠ 45) ∧ ∀ c, u.getLast? = some c → ¬ NumSpace c := by
    intro w hne hw h
    have hall := word_ends hw h
    refine ⟨?_, fun c hc => ?_, fun c hc => ?_⟩
    · rintro rfl; exact hne h.symm
    · have := hall c (List.mem_of_mem_head? hc)
      exact ⟨letter_not_space (by omega), by omega, by omega⟩
    · have := hall c (List.mem_of_getLast? hc)
      exact letter_not_space (by omega)
  cases h with
  | inf h =>
    rcases h with h | h
    · exact word (by decide) (by decide) h
    · exact word (by decide) (by decide) h
  | nan h => exact word (by decide) (by decide) h
  | number h =>
    obtain ⟨h1, h2, h3⟩ := decimalText_ends h
    refine ⟨h1, fun c hc => ?_, fun c hc => ?_⟩
    · rcases h2 c hc with h | rfl
      · refine ⟨dec_not_space h, fun e => ?_, fun e => ?_⟩ <;> exact absurd (dec_ascii h (by omega)) (by omega)
      · exact ⟨letter_not_space (by omega), by omega, by omega⟩
    · rcases h3 c hc with h | rfl
      · exact dec_not_space h
      · exact letter_not_space (by omega)

theorem decimal_not_word {u : Str} {n : Nat} {k : Int} (h : DecimalText u n k) {w : Str}
    (hw : ∀ c ∈ w, 97 ≤ c ∧ c ≤ 122) (hs : SameWord u w) : False := by
  obtain ⟨h1, h2, _⟩ := decimalText_ends h
  cases u with
  | nil => exact h1 rfl
  | cons c u =>
    have := word_ends hw hs c (by simp)
    rcases h2 c rfl with h | h
    · exact absurd (dec_ascii h (by omega)) (by omega)
    · omega

/-- the double of a number -/
def litDbl : Lit → Dbl
  | .nan => .nan
  | .inf neg => .inf neg
  | .dec neg n k => decDbl neg n k

theorem pyFloat_lit {s : Str} {x : Dbl} : pyFloat s = .ok x ↔ ∃ l, FloatLit s l ∧ litDbl l = x := by
  have w1 : ∀ c ∈ (py!"inf"), 97 ≤ c ∧ c ≤ 122 := by decide
  have w2 : ∀ c ∈ (py!"infinity"), 97 ≤ c ∧ c ≤ 122 := by decide
  have w3 : ∀ c ∈ (py!"nan"), 97 ≤ c ∧ c ≤ 122 := by decide
  unfold pyFloat
  rw [cStrip_map]
  constructor
  · intro h
    split at h
    · cases h
    · next a ha =>
      obtain ⟨t, rfl, ht⟩ := (grouped_iff _ a).1 ha
      obtain ⟨sg, u, rfl, hsg, hu⟩ := takeSign_sign (s := t)
      simp only [hu] at h
      split at h
      · next hc =>
        simp only [Bool.or_eq_true, decide_eq_true_eq, sameWord_map w1, sameWord_map w2] at hc
        cases h
        exact ⟨_, .mk (spaced_nstrip s) ht hsg (.inf hc), rfl⟩
      · split at h
        · next hc =>
          rw [sameWord_map w3] at hc
          cases h
          exact ⟨_, .mk (spaced_nstrip s) ht hsg (.nan hc), rfl⟩
        · split at h
          · next n k hp =>
            cases h
            exact ⟨_, .mk (spaced_nstrip s) ht hsg (.number (parseDecimal_iff.1 hp)), rfl⟩
          · cases h
  · rintro ⟨l, ⟨hs, hg, hsg, hu⟩, rfl⟩
    rename_i t sg u neg
    obtain ⟨h1, h2, h3⟩ := unsigned_ends hu
    have hst : nstrip s = t := by
      refine nstrip_spaced hs (fun c hc => ?_) (fun c hc => ?_) ?_
      · rw [grouped_head hg] at hc
        exact sign_head hsg hc (fun c hc => (h2 c hc).1)
      · rw [grouped_last hg, last_append h1] at hc
        exact h3 c hc
      · rintro rfl
        generalize hq : sg ++ u = q at hg
        cases hg
        exact h1 (List.append_eq_nil_iff.1 hq).2
    rw [hst, (grouped_iff t _).2 ⟨_, rfl, hg⟩]
    simp only [takeSign_of hsg (fun c hc => (h2 c hc).2)]
    cases hu with
    | inf h =>
      rw [if_pos]
      · rfl
      simp only [Bool.or_eq_true, decide_eq_true_eq, sameWord_map w1, sameWord_map w2]
      exact h
    | nan h =>
      rw [if_neg, if_pos ((sameWord_map w3).2 h)]
      · rfl
      simp only [Bool.or_eq_true, decide_eq_true_eq, sameWord_map w1, sameWord_map w2, not_or]
      unfold SameWord at h ⊢
      rw [h]
      decide
    | number h =>
      rw [if_neg, if_neg (fun e => decimal_not_word h w3 ((sameWord_map w3).1 e)), parseDecimal_iff.2 h]
      · rfl
      simp only [Bool.or_eq_true, decide_eq_true_eq, sameWord_map w1, sameWord_map w2, not_or]
      exact ⟨decimal_not_word h w1, decimal_not_word h w2⟩

theorem pyFloat_of {s : Str} {l : Lit} (h : FloatLit s l) : pyFloat s = .ok (litDbl l) := pyFloat_lit.2 ⟨l, h, rfl⟩

theorem lit_of {s : Str} {x : Dbl} (h : pyFloat s = .ok x) : ∃ l, FloatLit s l := by
  obtain ⟨l, hl, _⟩ := pyFloat_lit.1 h
  exact ⟨l, hl⟩

end
end Py
