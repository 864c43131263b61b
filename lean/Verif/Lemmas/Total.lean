import Verif.Spec.Total
import Verif.Props.Fates
import Verif.Lemmas.Double
/-! Helper lemmas: every field, whatever its characters. -/
namespace Arinc
open Py Spec Spec.Std

section
variable [PyUnicode]

omit [PyUnicode] in
theorem litDbl_iff {l : Lit} {x : Dbl} : litDbl l = x ↔ Denotes l x := by
  cases l with
  | nan => exact ⟨fun h => h ▸ .nan, fun h => by cases h; rfl⟩
  | inf neg => exact ⟨fun h => h ▸ .inf, fun h => by cases h; rfl⟩
  | dec neg n k => exact ⟨fun h => .dec (decDbl_iff.1 h), fun h => by cases h with | dec h => exact decDbl_iff.2 h⟩

theorem pyFloat_iff {s : Str} {x : Dbl} : pyFloat s = .ok x ↔ FloatText s x := by
  rw [pyFloat_lit]
  exact exists_congr fun l => and_congr_right fun _ => litDbl_iff

omit [PyUnicode] in
theorem fmt_iff {x : Dbl} {d : ℕ} {s : Str} (hd : 0 < d) : x.fmt d = s ↔ FixedText d x s := by
  cases x with
  | nan => exact ⟨fun h => h ▸ .nan, fun h => by cases h; rfl⟩
  | inf neg =>
    cases neg with
    | false => exact ⟨fun h => h ▸ .inf, fun h => by cases h; rfl⟩
    | true => exact ⟨fun h => h ▸ .negInf, fun h => by cases h; rfl⟩
  | fin neg m e =>
    obtain ⟨h1, h2⟩ := dblFrac_val m e
    have hq : (((dblFrac m e).1 * 10 ^ d : ℕ) : ℚ) / ((dblFrac m e).2 : ℕ) = m * 2 ^ e * 10 ^ d := by
      rw [← h1]; push_cast; ring
    have hr : NearestInt (m * 2 ^ e * 10 ^ d) (rne ((dblFrac m e).1 * 10 ^ d) (dblFrac m e).2) := by
      have := (rne_iff (a := (dblFrac m e).1 * 10 ^ d) h2).1 rfl
      rwa [hq] at this
    constructor
    · rintro rfl
      have := FixedText.fin (neg := neg) hr (fixed_of hd)
      simpa [Dbl.fmt, List.append_assoc] using this
    · intro h
      cases h with
      | @fin _ _ n _ s hn hs =>
        rw [← hq] at hn
        have hn := (rne_iff h2).2 hn
        simp only [Dbl.fmt, hn]
        rw [← fixed_unique (fixed_of hd) hs]
        simp [List.append_assoc]

theorem floatThen_iff {s : Str} {R : Dbl → PyVal → Prop} {f : Dbl → PyVal} (hR : ∀ x p, R x p ↔ f x = p)
    {res : Except Exc PyVal} : FloatThen s R res ↔ (pyFloat s >>= fun x => .ok (f x)) = res := by
  unfold FloatThen
  constructor
  · rintro (⟨x, p, hx, hp, rfl⟩ | ⟨hn, rfl⟩)
    · rw [pyFloat_iff.2 hx, ← (hR _ _).1 hp]; rfl
    · rw [not_isFloat hn]; rfl
  · intro h
    cases hp : pyFloat s with
    | ok x => rw [hp] at h; exact .inl ⟨x, f x, pyFloat_iff.1 hp, (hR _ _).2 rfl, h.symm⟩
    | error e =>
      have hn : ¬ IsFloat s := fun ⟨x, hx⟩ => by rw [pyFloat_of hx] at hp; cases hp
      rw [not_isFloat hn] at h
      exact .inr ⟨hn, h.symm⟩

omit [PyUnicode] in
theorem quotientText_iff {d k : Nat} {unit : Str} (hd : 0 < d) (hk : 0 < k) (x : Dbl) (p : PyVal) :
    QuotientText d k unit x p ↔ .str ((x.divNat d).fmt k ++ unit) = p := by
  constructor
  · rintro ⟨y, s, h1, h2, rfl⟩
    rw [(divNat_iff hd).2 h1, (fmt_iff hk).2 h2]
  · rintro rfl
    exact ⟨_, _, (divNat_iff hd).1 rfl, (fmt_iff hk).1 rfl, rfl⟩

omit [PyUnicode] in
theorem quotientText_nil_iff {d k : Nat} (hd : 0 < d) (hk : 0 < k) (x : Dbl) (p : PyVal) :
    QuotientText d k [] x p ↔ .str ((x.divNat d).fmt k) = p := by
  rw [quotientText_iff hd hk, List.append_nil]

omit [PyUnicode] in
theorem quotientFloat_iff {d : Nat} (hd : 0 < d) (x : Dbl) (p : PyVal) :
    QuotientFloat d x p ↔ .float (x.divNat d) = p := by
  constructor
  · rintro ⟨y, h1, rfl⟩
    rw [(divNat_iff hd).2 h1]
  · rintro rfl
    exact ⟨_, (divNat_iff hd).1 rfl, rfl⟩

theorem intThen_iff {s : Str} {f : Int → PyVal} {res : Except Exc PyVal} :
    IntThen s f res ↔ (pyInt s >>= fun x => .ok (f x)) = res := by
  unfold IntThen
  constructor
  · rintro (⟨x, hx, rfl⟩ | ⟨hn, rfl⟩)
    · rw [pyInt_iff.2 hx]; rfl
    · rw [not_isInt hn]; rfl
  · intro h
    cases hp : pyInt s with
    | ok x => rw [hp] at h; exact .inl ⟨x, pyInt_iff.1 hp, h.symm⟩
    | error e =>
      have hn : ¬ IsInt s := fun ⟨x, hx⟩ => by rw [pyInt_iff.2 hx] at hp; cases hp
      rw [not_isInt hn] at h
      exact .inr ⟨hn, h.symm⟩

omit [PyUnicode] in
theorem threeDigits_eq (i : Int) : threeDigits i = fmt03 i := by
  unfold threeDigits fmt03 zfill
  rw [decimal_eq]
  rfl

omit [PyUnicode] in
theorem blank_strip {v : Str} : blank v = true ↔ strip v = [] := by
  rw [blank_iff, strip_nil_iff]

omit [PyUnicode] in
theorem lstripZeros_eq (v : Str) : v.dropWhile (fun c => decide (c = 48)) = lstripZeros v := by
  unfold lstripZeros
  congr 1

theorem pyInt_one {c d : Nat} (h : PyUnicode.decimal c = some d) : pyInt [c] = .ok (d : Int) := by
  refine pyInt_iff.2 ?_
  have hd : DigitsDenote [c] d := by
    have := DigitsDenote.snoc .nil h
    simpa using this
  have h95 : c ≠ 95 := fun e => absurd (dec_ascii ⟨d, h⟩ (by omega)) (by omega)
  have := IntText.mk (s := [c]) (t := [c]) (sg := []) (g := [c]) (ds := [c]) (neg := false) (n := d)
    ⟨[], [], by simp, by simp, by simp⟩ rfl .none (.plain h95 .nil) (by simp) (by simp) hd
  exact this

theorem pyInt_other {c : Nat} (h : PyUnicode.decimal c = none) : pyInt [c] = .error .valueError := by
  refine not_isInt ?_
  rintro ⟨i, hi⟩
  cases hi with
  | @mk t sg g ds neg n hs ht hsg hg hne hl hn =>
    subst ht
    obtain ⟨pre, post, e, _, _⟩ := hs
    have hgne : g ≠ [] := by rintro rfl; cases hg; exact hne rfl
    have hgl := List.length_pos_iff.2 hgne
    have hlen := congrArg List.length e
    simp only [List.length_append, List.length_cons, List.length_nil] at hlen
    have e1 : pre = [] := List.length_eq_zero_iff.1 (by omega)
    have e2 : sg = [] := List.length_eq_zero_iff.1 (by omega)
    have e3 : post = [] := List.length_eq_zero_iff.1 (by omega)
    subst e1 e2 e3
    simp only [List.nil_append, List.append_nil] at e
    subst e
    cases hg with
    | plain _ hg =>
      cases hg
      obtain ⟨d, hd⟩ := (denote_val hn).1 c (by simp)
      rw [h] at hd; cases hd

omit [PyUnicode] in
theorem intStr_nat (n : Nat) : intStr (n : Int) = decimal n := by
  unfold intStr
  rw [if_neg (by omega), decimal_eq]
  rfl

omit [PyUnicode] in
theorem eq_comm_iff {α : Type} {a b c : α} (h : b = c) : a = b ↔ c = a := by
  subst h; exact eq_comm

/-- the types that ask for kinds of characters or read numbers, and do not print -/
theorem result_iff (fn : DecFn) (v : Str) (rec : RecInfo) {legs : Legs} (hl : Grown legs)
    (hw : fullWidth fn v.length = true) (hc : classed fn = true) (h34 : fn ≠ .f034) (h65 : fn ≠ .f065)
    (res : Except Exc PyVal) : Result fn v res ↔ (runDec fn v rec legs).res = res := by
  cases fn <;> simp only [classed, Bool.false_eq_true] at hc <;> simp only [Result]
  case f034 => exact absurd rfl h34
  case f065 => exact absurd rfl h65
  case f008 =>
    refine eq_comm_iff (c := field_008 v) ?_
    unfold field_008 okIf; rfl
  case f009 =>
    refine eq_comm_iff (c := field_009 v) ?_
    unfold field_009; split <;> rfl
  case f021 =>
    refine eq_comm_iff (c := (field_021 v legs).res) ?_
    obtain ⟨h1, h2, h3, _⟩ := C49_path_terminator v rec hl
    by_cases hb : blank v = true
    · rw [if_pos hb]; exact (h2 (blank_iff.1 hb)).symm
    · rw [if_neg hb]
      unfold okIf
      have hs : ¬ (strip v).length = 0 := fun h => hb (blank_strip.2 (List.length_eq_zero_iff.1 h))
      cases ha : isAlpha (strip v) with
      | false =>
        unfold field_021
        simp only [if_neg hs, ha]
        rfl
      | true =>
        rw [if_pos rfl]
        split
        · next d hd => exact (h1 d (lookup_mem hd)).symm
        · next hn => exact (h3 (fun h => hb (blank_iff.2 h)) (lookup_none hn) ha).symm
  case f022 =>
    refine eq_comm_iff (c := field_022 v) ?_
    unfold field_022 okIf
    by_cases hb : blank v = true
    · simp [hb, blank_strip.1 hb, ret]
    · have hs : (strip v).length > 0 := List.length_pos_iff.2 fun h => hb (blank_strip.2 h)
      simp only [Bool.not_eq_true] at hb
      simp only [hb, Bool.false_or, if_pos hs]
      cases isAlpha (strip v) <;> rfl
  case f023 | f024 | f025 =>
    first
      | refine eq_comm_iff (c := field_023 v) ?_
      | refine eq_comm_iff (c := field_024 v) ?_
      | refine eq_comm_iff (c := field_025 v) ?_
    first | unfold field_023 okIf | unfold field_024 okIf | unfold field_025 okIf
    by_cases hb : blank v = true
    · simp [hb, blank_strip.1 hb, ret]
    · have hs : (strip v).length > 0 := List.length_pos_iff.2 fun h => hb (blank_strip.2 h)
      simp only [Bool.not_eq_true] at hb
      simp only [hb, Bool.false_or, if_pos hs]
      cases isAlnum (strip v) with
      | false => rfl
      | true =>
        by_cases h4 : (strip v).length ≤ 4
        · simp [h4, ret]
        · simp [h4, show (strip v).length > 4 by omega]
  case f026 =>
    show _ ↔ field_026 v = res
    unfold field_026
    by_cases hb : blank v = true
    · rw [if_pos hb]
      simp only [blank_strip.1 hb, List.length_nil, if_true, ret]
      exact eq_comm
    · have hs : ¬ (strip v).length = 0 := fun h => hb (blank_strip.2 (List.length_eq_zero_iff.1 h))
      rw [if_neg hb]
      simp only [if_neg hs]
      by_cases ha : isAlnum (strip v) = true ∧ (strip v).length ≤ 4
      · have h1 : (isAlnum (strip v) && decide ((strip v).length ≤ 4)) = true := by simp [ha]
        have h2 : ¬ (isAlnum (strip v) = false ∨ (strip v).length > 4) := by
          rintro (h | h)
          · rw [ha.1] at h; cases h
          · omega
        rw [if_pos h1, if_neg h2]
        unfold endsWithChar
        by_cases ht : (strip v).getLast? = some 84
        · rw [if_pos ht, if_pos (by simp [ht])]
          exact eq_comm
        · rw [if_neg ht, if_neg (by simp [ht]), floatThen_iff (quotientText_nil_iff (by omega) (by omega))]
          rfl
      · rw [if_neg (by simpa using ha), if_pos]
        · exact eq_comm
        · by_cases hal : isAlnum (strip v) = true
          · exact .inr (by have := mt (And.intro hal) ha; omega)
          · exact .inl (by simpa using hal)
  case f027 =>
    show _ ↔ field_027 v = res
    unfold field_027
    by_cases hb : blank v = true
    · rw [if_pos hb]
      simp only [blank_strip.1 hb]
      exact eq_comm
    · have hs : (strip v).length > 0 := List.length_pos_iff.2 fun h => hb (blank_strip.2 h)
      rw [if_neg hb]
      simp only [if_pos hs]
      generalize strip v = s at hs
      cases s with
      | nil => simp at hs
      | cons c w =>
        rw [index_cons_zero]
        by_cases h84 : c = 84
        · subst h84
          exact floatThen_iff (quotientText_iff (by omega) (by omega))
        · split
          · next h => cases h; exact absurd rfl h84
          · show _ ↔ (if [c] = (py!"T") then _ else _) = res
            rw [if_neg (by intro e; cases e; exact h84 rfl), floatThen_iff (quotientText_iff (by omega) (by omega))]
            rfl
  case f029 | f030 | f048 | f050 | f053 | f073 | f086 | f092 | f123 | f127 | f147 | f161 | f184 | f209 | f240 =>
    refine eq_comm_iff (c := feet v) ?_
    unfold feet
    rw [lstripZeros_eq]
    split <;> rfl
  case f054 =>
    refine eq_comm_iff (c := field_054 v) ?_
    unfold field_054
    rw [lstripZeros_eq]
    split
    · show _ = ret _; rw [List.append_assoc]; rfl
    · rfl
  case f032 =>
    show _ ↔ field_032 v = res
    rw [intThen_iff]
    unfold field_032 ret
    have h1 : slice v 0 2 = v.take 2 := rfl
    have h2 : sliceFrom v 2 = v.drop 2 := rfl
    rw [h1, h2]
    refine iff_of_eq (congrArg (· = res) ?_)
    congr 1
    funext y
    split <;> rfl
  case f039 =>
    show _ ↔ field_039 v = res
    unfold field_039
    by_cases hb : blank v = true
    · rw [if_pos hb, if_pos (blank_strip.1 hb)]
      exact eq_comm
    · rw [if_neg hb, if_neg (fun h => hb (blank_strip.2 h)), intThen_iff]
      simp only [fullWidth, Bool.and_eq_true, decide_eq_true_eq] at hw
      cases v with
      | nil => simp at hw
      | cons c w =>
        simp only [threeDigits_eq]
        rfl
  case f045 | f103 | f062 | f135 =>
    first
      | show _ ↔ field_045 v = res; unfold field_045
      | show _ ↔ field_103 v = res; unfold field_103
      | show _ ↔ field_062 v = res; unfold field_062
      | show _ ↔ field_135 v = res; unfold field_135
    cases isNumeric v with
    | true =>
      simp only [if_true]
      first
        | exact floatThen_iff (quotientText_nil_iff (by omega) (by omega))
        | exact floatThen_iff (quotientFloat_iff (by omega))
    | false => simp only [Bool.false_eq_true, if_false]; exact eq_comm
  case f072 =>
    refine eq_comm_iff (c := field_072 v) ?_
    unfold field_072 okIf
    split
    · rfl
    · by_cases hb : blank v = true
      · rw [if_pos hb, if_pos (blank_strip.1 hb)]; rfl
      · rw [if_neg hb, if_neg (fun h => hb (blank_strip.2 h))]
  case f178 =>
    show _ ↔ field_178 v = res
    simp only [fullWidth, decide_eq_true_eq] at hw
    cases v with
    | nil => simp at hw
    | cons c w =>
      have e : field_178 (c :: w) = (if isAlpha [c] && isNumeric w then do
          let i ← upperIndex [c]
          let x := i - 12
          let y := if x ≥ 0 then py!"GMT +" ++ intStr x else py!"GMT -" ++ intStr x
          ret (y ++ py!":" ++ w)
        else ret (unsupported (c :: w))) := rfl
      rw [e]
      simp only
      by_cases ha : (isAlpha [c] && isNumeric w) = true
      · rw [if_pos ha, if_pos ha]
        unfold upperIndex
        by_cases h1 : 77 ≤ c ∧ c ≤ 90
        · rw [if_pos h1]
          simp only
          rw [if_pos (by omega)]
          have e2 : ((c : Int) - 65) - 12 = ((c - 77 : Nat) : Int) := by omega
          show _ ↔ ret ((if ((c : Int) - 65) - 12 ≥ 0 then _ else _) ++ _ ++ _) = res
          rw [if_pos (by omega), e2, intStr_nat]
          exact eq_comm
        · rw [if_neg h1]
          by_cases h2 : 65 ≤ c ∧ c ≤ 76
          · rw [if_pos h2]
            simp only
            rw [if_pos (by omega)]
            show _ ↔ ret ((if ((c : Int) - 65) - 12 ≥ 0 then _ else _) ++ _ ++ _) = res
            rw [if_neg (by omega)]
            have e3 : intStr ((c : Int) - 65 - 12) = 45 :: decimal (77 - c) := by
              unfold intStr
              rw [if_pos (by omega), decimal_eq]
              congr 2
              omega
            rw [e3]
            exact eq_comm
          · rw [if_neg h2]
            simp only
            rw [if_neg (by omega)]
            exact eq_comm
      · rw [if_neg ha, if_neg ha]
        exact eq_comm
  case f269 =>
    show _ ↔ field_269 v = res
    unfold field_269
    by_cases hb : blank v = true
    · rw [if_pos hb, if_neg (by simpa using blank_strip.1 hb)]
      exact eq_comm
    · rw [if_neg hb, if_pos (fun h => hb (blank_strip.2 h)), floatThen_iff (quotientFloat_iff (by omega))]

theorem legTime_ok {a b m s : Nat} {rest : Str} (ha : PyUnicode.decimal a = some m)
    (hb : PyUnicode.decimal b = some s) :
    legTime (a :: b :: rest) = .ok (decimal m ++ py!"m " ++ decimal (6 * s) ++ py!"s") := by
  unfold legTime
  simp only [index_cons_zero, index_cons_one, pyInt_one ha, pyInt_one hb]
  rw [intStr_nat, show (s : Int) * 6 = ((6 * s : Nat) : Int) by omega, intStr_nat]

theorem legTime_error {v : Str} (h : ¬ ∃ a b rest, v = a :: b :: rest ∧ IsDec a ∧ IsDec b) :
    legTime v = .error (legError v) := by
  unfold legTime
  match v, h with
  | [], _ => rfl
  | [a], _ =>
    have h1 : index [a] 1 = .error .indexError := rfl
    simp only [index_cons_zero, h1, legError]
    cases hd : PyUnicode.decimal a with
    | some d => simp [pyInt_one hd]
    | none => simp [pyInt_other hd]
  | a :: b :: rest, h =>
    simp only [index_cons_zero, index_cons_one, legError]
    cases hd : PyUnicode.decimal a with
    | some d =>
      cases he : PyUnicode.decimal b with
      | some e => exact absurd ⟨a, b, rest, rfl, ⟨d, hd⟩, ⟨e, he⟩⟩ h
      | none => simp [pyInt_one hd, pyInt_other he]
    | none => simp [pyInt_other hd]

/-- every field -/
theorem gives_iff (fn : DecFn) (v : Str) (rec : RecInfo) {legs : Legs} (hl : Grown legs)
    (hw : fullWidth fn v.length = true) (res : Except Exc PyVal) (out : List Event) :
    Gives rec.ident rec.raw fn v res out ↔
      (runDec fn v rec legs).res = res ∧ (runDec fn v rec legs).out = out := by
  by_cases h34 : fn = .f034
  · subst h34
    simp only [Gives]
    show _ ↔ (field_034 v rec.ident rec.raw).1 = res ∧ (field_034 v rec.ident rec.raw).2 = out
    unfold field_034
    by_cases hb : blank v = true
    · rw [if_pos hb]
      simp only [blank_strip.1 hb]
      exact and_congr eq_comm eq_comm
    · have hs : (strip v).length > 0 := List.length_pos_iff.2 fun h => hb (blank_strip.2 h)
      rw [if_neg hb]
      simp only [if_pos hs]
      cases hn : isNumeric (strip v) with
      | true =>
        simp only [if_true, Bool.true_eq_false, if_false]
        rw [floatThen_iff (quotientText_nil_iff (by omega) (by omega))]
        exact and_congr Iff.rfl eq_comm
      | false =>
        simp only [Bool.false_eq_true, if_false, if_true]
        exact and_congr eq_comm eq_comm
  · by_cases h65 : fn = .f065
    · subst h65
      simp only [Gives]
      show _ ↔ (field_065 v).1 = res ∧ (field_065 v).2 = out
      unfold field_065
      by_cases hb : blank v = true
      · rw [if_pos hb, if_pos (blank_strip.1 hb)]
        exact and_congr eq_comm eq_comm
      · rw [if_neg hb, if_neg (fun h => hb (blank_strip.2 h))]
        by_cases hd : ∃ a b rest, v = a :: b :: rest ∧ IsDec a ∧ IsDec b
        · obtain ⟨a, b, rest, rfl, ⟨m, hm⟩, ⟨s, hs⟩⟩ := hd
          rw [legTime_ok hm hs]
          constructor
          · rintro (⟨a', b', rest', m', s', e, hm', hs', rfl, rfl⟩ | ⟨hn, _⟩)
            · cases e
              rw [hm] at hm'
              rw [hs] at hs'
              cases hm'
              cases hs'
              exact ⟨rfl, rfl⟩
            · exact absurd ⟨a, b, rest, rfl, ⟨m, hm⟩, ⟨s, hs⟩⟩ hn
          · rintro ⟨rfl, rfl⟩
            exact .inl ⟨a, b, rest, m, s, rfl, hm, hs, rfl, rfl⟩
        · rw [legTime_error hd]
          constructor
          · rintro (⟨a, b, rest, m, s, e, hm, hs, _⟩ | ⟨_, rfl, rfl⟩)
            · exact absurd ⟨a, b, rest, e, ⟨m, hm⟩, ⟨s, hs⟩⟩ hd
            · exact ⟨rfl, rfl⟩
          · rintro ⟨rfl, rfl⟩
            exact .inr ⟨hd, rfl, rfl⟩
    · have hg : Gives rec.ident rec.raw fn v res out ↔ if classed fn = true then Result fn v res ∧ out = []
          else match verdict rec.ident rec.raw fn v with
            | .shown x messages => res = x.value ∧ out = messages
            | .raised e messages => res = .error e ∧ out = messages := by
        cases fn
        case f034 => exact absurd rfl h34
        case f065 => exact absurd rfl h65
        all_goals exact Iff.rfl
      rw [hg]
      by_cases hc : classed fn = true
      · rw [if_pos hc, result_iff fn v rec hl hw hc h34 h65 res]
        have h118 : fn ≠ .f118 := by rintro rfl; cases hc
        rw [runDec_silent fn v rec legs ⟨h34, h65, h118⟩]
        exact and_congr Iff.rfl eq_comm
      · rw [if_neg hc]
        have hu : ¬ Unusual fn v := by
          cases fn <;> first | exact fun h => h | exact absurd rfl hc
        have := verdict_of fn v rec hl (fun h => absurd h hc) hw hu
        cases hv : verdict rec.ident rec.raw fn v with
        | shown x m =>
          rw [hv] at this
          simp only at this ⊢
          rw [this.1, this.2]
          exact and_congr eq_comm eq_comm
        | raised e m =>
          rw [hv] at this
          simp only at this ⊢
          rw [this.1, this.2]
          exact and_congr eq_comm eq_comm

theorem gives_unique {k t : Str} {fn : DecFn} {v : Str} (hw : fullWidth fn v.length = true)
    {r r' : Except Exc PyVal} {o o' : List Event} (h : Gives k t fn v r o) (h' : Gives k t fn v r' o') :
    r = r' ∧ o = o' := by
  have g := (gives_iff fn v ⟨k, t⟩ (legs := legTypeDesc) grown_init hw r o).1 h
  have g' := (gives_iff fn v ⟨k, t⟩ (legs := legTypeDesc) grown_init hw r' o').1 h'
  exact ⟨g.1.symm.trans g'.1, g.2.symm.trans g'.2⟩

end
end Arinc
