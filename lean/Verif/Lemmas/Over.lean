import Verif.Lemmas.Process
import Verif.Lemmas.Value
import Verif.Model.Api
import Verif.Spec.Plain
/-!
# Which characters the decoders write
-/
namespace Arinc
open Py Spec

/-- only characters with the property `P` -/
def Over (P : Nat → Prop) (s : Str) : Prop := ∀ c ∈ s, P c

theorem over_append {P : Nat → Prop} {s t : Str} (hs : Over P s) (ht : Over P t) : Over P (s ++ t) := by
  intro c hc
  rcases List.mem_append.1 hc with h | h
  · exact hs c h
  · exact ht c h

theorem over_cons {P : Nat → Prop} {c : Nat} {s : Str} (hc : P c) (hs : Over P s) : Over P (c :: s) := by
  intro d hd
  rcases List.mem_cons.1 hd with rfl | h
  · exact hc
  · exact hs d h

theorem over_lit {P : Nat → Prop} (hP : ∀ c, Plain c → P c) {s : Str} (hs : s.all (Plain ·) = true) : Over P s := by
  intro c hc
  have := List.all_eq_true.1 hs c hc
  exact hP c (by simpa using this)

theorem over_sub {P : Nat → Prop} {s t : Str} (ht : Over P t) (h : ∀ c ∈ s, c ∈ t) : Over P s :=
  fun c hc => ht c (h c hc)

theorem over_strip {P : Nat → Prop} {s : Str} (h : Over P s) : Over P (strip s) :=
  over_sub h fun _ hc => mem_of_mem_strip hc

theorem over_slice {P : Nat → Prop} {s : Str} (h : Over P s) (a b : Nat) : Over P (slice s a b) :=
  over_sub h fun _ hc => List.mem_of_mem_take (List.mem_of_mem_drop hc)

theorem over_sliceFrom {P : Nat → Prop} {s : Str} (h : Over P s) (a : Nat) : Over P (sliceFrom s a) :=
  over_sub h fun _ hc => List.mem_of_mem_drop hc

theorem over_lstripZeros {P : Nat → Prop} {s : Str} (h : Over P s) : Over P (lstripZeros s) :=
  over_sub h fun _ hc => (List.dropWhile_sublist _).subset hc

theorem over_index {P : Nat → Prop} {s t : Str} {i : Nat} (ht : index s i = .ok t) (h : Over P s) : Over P t := by
  unfold index at ht
  split at ht
  · next c hc =>
    cases ht
    exact over_cons (h c (List.mem_of_getElem? hc)) (fun _ h => by cases h)
  · cases ht

theorem over_natStr {P : Nat → Prop} (hP : ∀ c, Plain c → P c) (n : Nat) : Over P (natStr n) := by
  intro c hc
  have := (natStr_decimal n).1.2.1 c hc
  exact hP c (by unfold Plain; omega)

theorem over_zfill {P : Nat → Prop} (hP : ∀ c, Plain c → P c) {s : Str} (h : Over P s) (n : Nat) :
    Over P (zfill n s) := by
  refine over_append (fun c hc => ?_) h
  rw [List.mem_replicate] at hc
  exact hP c (by unfold Plain; omega)

theorem over_intStr {P : Nat → Prop} (hP : ∀ c, Plain c → P c) (i : Int) : Over P (intStr i) := by
  unfold intStr
  split
  · exact over_cons (hP _ (by decide)) (over_natStr hP _)
  · exact over_natStr hP _

theorem over_fmt03 {P : Nat → Prop} (hP : ∀ c, Plain c → P c) (i : Int) : Over P (fmt03 i) := by
  unfold fmt03
  split
  · exact over_cons (hP _ (by decide)) (over_zfill hP (over_natStr hP _) _)
  · exact over_zfill hP (over_natStr hP _) _

theorem over_fmt {P : Nat → Prop} (hP : ∀ c, Plain c → P c) (d : Nat) (x : Dbl) : Over P (x.fmt d) := by
  unfold Dbl.fmt
  split
  · exact over_lit hP (by decide)
  · split <;> exact over_lit hP (by decide)
  · exact over_append (over_append (over_append (by split <;> exact over_lit hP (by decide)) (over_natStr hP _))
      (over_lit hP (by decide))) (over_zfill hP (over_natStr hP _) _)

/-- all texts of the table are ASCII -/
def AsciiTable (t : List (Str × Str)) : Prop := t.all (fun p => p.2.all (Plain ·)) = true

theorem over_lookup {P : Nat → Prop} (hP : ∀ c, Plain c → P c) {t : List (Str × Str)}
    (ht : AsciiTable t) {k s : Str} (h : t.lookup k = some s) : Over P s := by
  induction t with
  | nil => cases h
  | cons p t ih =>
    simp only [AsciiTable, List.all_cons, Bool.and_eq_true] at ht
    rw [List.lookup_cons] at h
    split at h
    · cases h; exact over_lit hP ht.1
    · exact ih ht.2 h

theorem over_lookupD {P : Nat → Prop} (hP : ∀ c, Plain c → P c) {t : List (Str × Str)}
    (ht : AsciiTable t) (k : Str) : Over P (lookupD t k) := by
  unfold lookupD
  split
  · next h => exact over_lookup hP ht h
  · exact over_lit hP (by decide)

theorem over_writeCase {P : Nat → Prop} (hP : ∀ c, Plain c → P c) {t : List (Str × Str)}
    (ht : AsciiTable t) (k : Str) : Over P (writeCase t k) := by
  unfold writeCase
  split
  · next h => exact over_append (over_lookup hP ht h) (over_lit hP (by decide))
  · exact over_lit hP (by decide)

theorem over_legs {P : Nat → Prop} (hP : ∀ c, Plain c → P c) {legs : Legs} (hl : Grown legs) {k s : Str}
    (h : legs.lookup k = some s) : Over P s := by
  have ht : AsciiTable legs := by
    unfold AsciiTable
    obtain ⟨e, rfl, he⟩ := hl
    rw [List.all_append, Bool.and_eq_true]
    refine ⟨by decide +kernel, List.all_eq_true.2 fun p hp => ?_⟩
    rw [(he p hp).2]; decide
  exact over_lookup hP ht h

theorem over_routeTypes (ident : Str) : AsciiTable (routeTypes ident) := by
  unfold AsciiTable routeTypes
  repeat' split
  all_goals decide +kernel

theorem ascii_t003 : AsciiTable t003 := by unfold AsciiTable; decide +kernel
theorem ascii_t004 : AsciiTable t004 := by unfold AsciiTable; decide +kernel
theorem ascii_t017_0 : AsciiTable t017_0 := by unfold AsciiTable; decide +kernel
theorem ascii_t017_1 : AsciiTable t017_1 := by unfold AsciiTable; decide +kernel
theorem ascii_t017_2 : AsciiTable t017_2 := by unfold AsciiTable; decide +kernel
theorem ascii_t017_3 : AsciiTable t017_3 := by unfold AsciiTable; decide +kernel
theorem ascii_t042_0 : AsciiTable t042_0 := by unfold AsciiTable; decide +kernel
theorem ascii_t042_1 : AsciiTable t042_1 := by unfold AsciiTable; decide +kernel
theorem ascii_t091 : AsciiTable t091 := by unfold AsciiTable; decide +kernel
theorem ascii_t101 : AsciiTable t101 := by unfold AsciiTable; decide +kernel
theorem ascii_t104 : AsciiTable t104 := by unfold AsciiTable; decide +kernel
theorem ascii_t106 : AsciiTable t106 := by unfold AsciiTable; decide +kernel
theorem ascii_t181 : AsciiTable t181 := by unfold AsciiTable; decide +kernel
theorem ascii_t196_0 : AsciiTable t196_0 := by unfold AsciiTable; decide +kernel
theorem ascii_t196_1 : AsciiTable t196_1 := by unfold AsciiTable; decide +kernel
theorem ascii_t198 : AsciiTable t198 := by unfold AsciiTable; decide +kernel
theorem ascii_t199 : AsciiTable t199 := by unfold AsciiTable; decide +kernel

/-- texts of a value -/
def ValOver (P : Nat → Prop) : PyVal → Prop
  | .str s => Over P s
  | _ => True

/-- the value, if there is one -/
def ResOver (P : Nat → Prop) (r : Except Exc PyVal) : Prop := ∀ y, r = .ok y → ValOver P y

theorem res_ret {P : Nat → Prop} {s : Str} (h : Over P s) : ResOver P (ret s) := by
  intro y hy; cases hy; exact h

theorem res_error {P : Nat → Prop} {e : Exc} : ResOver P (.error e) := by intro y hy; cases hy

theorem res_none {P : Nat → Prop} : ResOver P (.ok .none) := by intro y hy; cases hy; trivial

theorem res_float {P : Nat → Prop} {x : Dbl} : ResOver P (.ok (.float x)) := by intro y hy; cases hy; trivial

theorem res_bind {P : Nat → Prop} {α : Type} {a : Except Exc α} {f : α → Except Exc PyVal}
    (h : ∀ x, a = .ok x → ResOver P (f x)) : ResOver P (a >>= f) := by
  cases a with
  | error e => exact res_error
  | ok x => exact h x rfl

/-- what an event shows (other than the summary of `search`) -/
def EventOver (P : Nat → Prop) : Event → Prop
  | .line s => Over P s
  | .table rows => ∀ r ∈ rows, Over P r.field ∧ Over P r.value ∧ ValOver P r.decoded
  | .legTime v e => Over P v ∧ match e with
    | .notInt s => Over P s
    | .tooShort => True
  | .summary _ _ _ => False

/-- the texts built by the decoders -/
local macro "over" : tactic => `(tactic| repeat' first
  | assumption
  | with_reducible apply over_append
  | with_reducible apply over_strip
  | with_reducible apply over_slice
  | with_reducible apply over_sliceFrom
  | with_reducible apply over_lstripZeros
  | split
  | exact over_index ‹_› ‹_›
  | exact over_index ‹_› (over_strip ‹_›)
  | with_reducible exact over_lookup ‹_› ascii_t003 ‹_›
  | with_reducible exact over_lookup ‹_› ascii_t042_0 ‹_›
  | with_reducible exact over_lookup ‹_› ascii_t042_1 ‹_›
  | with_reducible exact over_lookup ‹_› ascii_t091 ‹_›
  | with_reducible exact over_lookup ‹_› ascii_t196_0 ‹_›
  | with_reducible exact over_lookup ‹_› ascii_t196_1 ‹_›
  | with_reducible exact over_lookupD ‹_› ascii_t004 _
  | with_reducible exact over_lookupD ‹_› ascii_t101 _
  | with_reducible exact over_lookupD ‹_› ascii_t104 _
  | with_reducible exact over_lookupD ‹_› ascii_t106 _
  | with_reducible exact over_lookupD ‹_› ascii_t181 _
  | with_reducible exact over_lookupD ‹_› ascii_t198 _
  | with_reducible exact over_lookupD ‹_› ascii_t199 _
  | with_reducible exact over_writeCase ‹_› ascii_t017_0 _
  | with_reducible exact over_writeCase ‹_› ascii_t017_1 _
  | with_reducible exact over_writeCase ‹_› ascii_t017_2 _
  | with_reducible exact over_writeCase ‹_› ascii_t017_3 _
  | with_reducible exact over_lookupD ‹_› (over_routeTypes _) _
  | exact over_legs ‹_› ‹_› ‹_›
  | exact over_fmt ‹_› _ _
  | exact over_fmt03 ‹_› _
  | exact over_intStr ‹_› _
  | exact over_lit ‹_› (by decide))

/-- the results of the decoders -/
local macro "res" : tactic => `(tactic| repeat' first
  | exact res_error
  | exact res_none
  | exact res_float
  | refine res_ret ?_
  | split
  | refine res_bind fun x hx => ?_)

variable [PyUnicode]

set_option maxHeartbeats 1000000 in
theorem field_over {P : Nat → Prop} (hP : ∀ c, Plain c → P c) {v : Str} (hv : Over P v) {rec : RecInfo} {legs : Legs}
    (fn : DecFn) (h1 : fn ≠ .f021) (h2 : fn ≠ .f034) (h3 : fn ≠ .f065) (h4 : fn ≠ .f118) :
    ResOver P (runDec fn v rec legs).res ∧ (runDec fn v rec legs).out = [] := by
  cases fn
  case f021 => exact absurd rfl h1
  case f034 => exact absurd rfl h2
  case f065 => exact absurd rfl h3
  case f118 => exact absurd rfl h4
  case ident n =>
    unfold runDec
    simp only
    split
    · exact ⟨res_ret hv, rfl⟩
    · exact ⟨res_error, rfl⟩
  all_goals refine ⟨?_, rfl⟩
  all_goals simp only [runDec, quiet]
  all_goals simp only [field_002, field_003, field_004, field_007, field_008, field_009, field_010, field_012, field_016,
    field_017, field_020, field_022, field_023, field_024, field_025, field_026, field_027, field_029, field_030,
    field_032, field_039, field_042, field_043, field_045, field_048, field_049, field_050, field_053, field_054,
    field_062, field_072, field_073, field_082, field_086, field_091, field_092, field_101, field_102, field_103,
    field_104, field_106, field_108, field_112, field_113, field_117, field_123, field_127, field_135, field_147,
    field_161, field_165, field_177, field_178, field_179, field_181, field_182, field_184, field_196, field_198,
    field_199, field_209, field_240, field_269, field_270, feet, dictCase, unsupported]
  all_goals res
  all_goals over

theorem runDec_over {P : Nat → Prop} (hP : ∀ c, Plain c → P c) {v : Str} (hv : Over P v) {rec : RecInfo}
    (hi : Over P rec.ident) (hr : Over P rec.raw) {legs : Legs} (hl : Grown legs) (fn : DecFn) :
    ResOver P (runDec fn v rec legs).res ∧ ∀ e ∈ (runDec fn v rec legs).out, EventOver P e := by
  have hs := over_strip hv
  by_cases h1 : fn = .f021
  · subst h1
    simp only [runDec, field_021]
    split
    · exact ⟨res_ret hs, fun e he => by cases he⟩
    · split
      · exact ⟨res_error, fun e he => by cases he⟩
      · split
        · next h => exact ⟨res_ret (over_legs hP hl h), fun e he => by cases he⟩
        · exact ⟨res_ret (over_lit hP (by decide)), fun e he => by cases he⟩
  by_cases h2 : fn = .f034
  · subst h2
    simp only [runDec, field_034, noisy]
    split
    · split
      · refine ⟨res_error, fun e he => ?_⟩
        simp only [List.mem_cons, List.not_mem_nil, or_false] at he
        rcases he with rfl | rfl <;> simp only [EventOver] <;> over
      · exact ⟨by res <;> over, fun e he => by cases he⟩
    · exact ⟨res_ret hs, fun e he => by cases he⟩
  by_cases h3 : fn = .f065
  · subst h3
    simp only [runDec, field_065, noisy]
    split
    · exact ⟨res_none, fun e he => by cases he⟩
    · split
      · next s h =>
        refine ⟨res_ret ?_, fun e he => by cases he⟩
        unfold legTime at h
        repeat' split at h
        all_goals cases h
        over
      · next e' h =>
        refine ⟨res_ret (by over), fun e he => ?_⟩
        simp only [List.mem_cons, List.not_mem_nil, or_false] at he
        subst he
        refine ⟨hv, ?_⟩
        unfold legTime at h
        repeat' split at h
        all_goals cases h
        all_goals simp only
        all_goals over
  by_cases h4 : fn = .f118
  · subst h4
    simp only [runDec, field_118, noisy]
    split
    · exact ⟨res_error, fun e he => by cases he⟩
    · split
      · refine ⟨res_ret (by over), fun e he => ?_⟩
        simp only [List.mem_cons, List.not_mem_nil, or_false] at he
        subst he
        simp only [EventOver]
        over
      · next s h =>
        have : Over P s := by
          unfold boundaryVia at h
          repeat' split at h
          all_goals cases h
          all_goals over
        split
        · exact ⟨res_error, fun e he => by cases he⟩
        · split <;> exact ⟨res_ret (by over), fun e he => by cases he⟩
  obtain ⟨a, b⟩ := field_over hP hv fn h1 h2 h3 h4 (rec := rec) (legs := legs)
  exact ⟨a, by rw [b]; intro e he; cases he⟩

end Arinc
