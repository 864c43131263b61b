import Verif.Model.Fault
import Verif.Spec.Fault
import Verif.Props.Parse
import Verif.Lemmas.SharedAlone
/-!
# Lemmas: exceptions with their arguments
-/
namespace Arinc
open Py Spec
section
variable [PyUnicode]

/-- without the arguments -/
def Plainly {α : Type} (x : Except Fault α) (y : Except Exc α) : Prop := x.mapError Fault.exc = y

omit [PyUnicode] in
theorem plainly_given (s : Str) : Plainly (given s) (ret s) := rfl
omit [PyUnicode] in
theorem plainly_ok {α : Type} (a : α) : Plainly (.ok a) (.ok a) := rfl
omit [PyUnicode] in
theorem plainly_raised (as : List Str) : Plainly (raised as) (.error .valueError) := rfl
omit [PyUnicode] in
theorem plainly_exit : Plainly (.error .exit : Except Fault PyVal) (.error .systemExit) := rfl

omit [PyUnicode] in
theorem plainly_ite {α : Type} {c : Prop} [Decidable c] {x x' : Except Fault α} {y y' : Except Exc α}
    (h : Plainly x y) (h' : Plainly x' y') : Plainly (if c then x else x') (if c then y else y') := by
  split <;> assumption

omit [PyUnicode] in
theorem plainly_bind {α β : Type} {x : Except Fault α} {y : Except Exc α} {f : α → Except Fault β} {g : α → Except Exc β}
    (h : Plainly x y) (h' : ∀ a, Plainly (f a) (g a)) : Plainly (x >>= f) (y >>= g) := by
  cases x with
  | error e => cases h; rfl
  | ok a => cases h; exact h' a

theorem plainly_float (p : Nat → Bool) (s : Str) : Plainly (pyFloatF p s) (pyFloat s) := by
  unfold pyFloatF
  cases h : pyFloat s with
  | ok x => rfl
  | error e => rw [pyFloat_err h]; rfl

theorem plainly_int (p : Nat → Bool) (s : Str) : Plainly (pyIntF p s) (pyInt s) := by
  unfold pyIntF
  cases h : pyInt s with
  | ok x => rfl
  | error e => rw [pyInt_err h]; rfl

omit [PyUnicode] in
theorem plainly_index (s : Str) (i : Nat) : Plainly (indexF s i) (index s i) := by
  unfold indexF
  cases h : index s i <;> rfl

omit [PyUnicode] in
theorem plainly_other {α : Type} (x : Except Exc α) : Plainly (x.mapError .other) x := by cases x <;> rfl

syntax "plain" : tactic
macro_rules | `(tactic| plain) => `(tactic| repeat' first
  | exact plainly_given _ | exact plainly_ok _ | exact plainly_raised _ | exact plainly_exit
  | exact plainly_float _ _ | exact plainly_int _ _ | exact plainly_index _ _
  | apply plainly_ite | apply plainly_bind | intro _)

theorem plainly_002 (v : Str) : Plainly (field_002F v) (field_002 v) := by
  unfold field_002F field_002; plain
theorem plainly_008 (v : Str) : Plainly (field_008F v) (field_008 v) := by
  unfold field_008F field_008; plain
theorem plainly_020 (v : Str) : Plainly (field_020F v) (field_020 v) := by
  unfold field_020F field_020; plain
theorem plainly_022 (v : Str) : Plainly (field_022F v) (field_022 v) := by
  unfold field_022F field_022; plain
theorem plainly_026 (p : Nat → Bool) (v : Str) : Plainly (field_026F p v) (field_026 v) := by
  unfold field_026F field_026; plain
theorem plainly_027 (p : Nat → Bool) (v : Str) : Plainly (field_027F p v) (field_027 v) := by
  unfold field_027F field_027; plain
theorem plainly_032 (p : Nat → Bool) (v : Str) : Plainly (field_032F p v) (field_032 v) := by
  unfold field_032F field_032; plain
theorem plainly_039 (p : Nat → Bool) (v : Str) : Plainly (field_039F p v) (field_039 v) := by
  unfold field_039F field_039; plain
theorem plainly_045 (p : Nat → Bool) (v : Str) : Plainly (freqF p v) (field_045 v) := by
  unfold freqF field_045; plain
theorem plainly_103 (p : Nat → Bool) (v : Str) : Plainly (freqF p v) (field_103 v) := by
  unfold freqF field_103; plain
theorem plainly_062 (p : Nat → Bool) (v : Str) : Plainly (tenthF p v) (field_062 v) := by
  unfold tenthF field_062; plain
theorem plainly_135 (p : Nat → Bool) (v : Str) : Plainly (tenthF p v) (field_135 v) := by
  unfold tenthF field_135; plain
theorem plainly_072 (v : Str) : Plainly (field_072F v) (field_072 v) := by
  unfold field_072F field_072; plain
theorem plainly_082 (v : Str) : Plainly (field_082F v) (field_082 v) := by
  unfold field_082F field_082; plain
theorem plainly_108 (v : Str) : Plainly (field_108F v) (field_108 v) := by
  unfold field_108F field_108; plain
theorem plainly_182 (v : Str) : Plainly (field_182F v) (field_182 v) := by
  unfold field_182F field_182; plain
theorem plainly_269 (p : Nat → Bool) (v : Str) : Plainly (field_269F p v) (field_269 v) := by
  unfold field_269F field_269; plain
theorem plainly_270 (v : Str) : Plainly (field_270F v) (field_270 v) := by
  unfold field_270F field_270; plain
theorem plainly_023 (t v : Str) : Plainly (shortF t v) (field_023 v) := by
  unfold shortF field_023; plain
theorem plainly_024 (t v : Str) : Plainly (shortF t v) (field_024 v) := by
  unfold shortF field_024; plain
theorem plainly_025 (t v : Str) : Plainly (shortF t v) (field_025 v) := by
  unfold shortF field_025; plain

theorem plainly_run (p : Nat → Bool) (fn : DecFn) (v : Str) (rec : RecInfo) (legs : Legs) :
    Plainly (runFault p fn v rec legs) (runDec fn v rec legs).res := by
  cases fn
  case f021 =>
    show Plainly (field_021F v legs) (field_021 v legs).res
    unfold field_021F field_021
    simp only
    split
    · rfl
    · split
      · rfl
      · cases legs.lookup (strip v) <;> rfl
  case f178 =>
    show Plainly (field_178F v) (field_178 v)
    unfold field_178F field_178
    refine plainly_bind (plainly_index _ _) fun a => ?_
    refine plainly_ite ?_ (plainly_given _)
    cases h : upperIndex a with
    | ok i => exact plainly_given _
    | error e =>
      have : e = .valueError := by
        unfold upperIndex at h
        split at h
        · split at h
          · cases h
          · cases h; rfl
        · cases h; rfl
      subst this; rfl
  case f034 =>
    show Plainly (field_034F p v) (field_034 v rec.ident rec.raw).1
    unfold field_034F field_034
    simp only
    split
    · split
      · rfl
      · exact plainly_bind (plainly_float _ _) fun a => plainly_given _
    · rfl
  case f002 => exact plainly_002 v
  case f008 => exact plainly_008 v
  case f020 => exact plainly_020 v
  case f022 => exact plainly_022 v
  case f026 => exact plainly_026 p v
  case f027 => exact plainly_027 p v
  case f032 => exact plainly_032 p v
  case f039 => exact plainly_039 p v
  case f045 => exact plainly_045 p v
  case f103 => exact plainly_103 p v
  case f062 => exact plainly_062 p v
  case f135 => exact plainly_135 p v
  case f072 => exact plainly_072 v
  case f082 => exact plainly_082 v
  case f108 => exact plainly_108 v
  case f182 => exact plainly_182 v
  case f269 => exact plainly_269 p v
  case f270 => exact plainly_270 v
  case f023 => exact plainly_023 _ v
  case f024 => exact plainly_024 _ v
  case f025 => exact plainly_025 _ v
  all_goals (simp only [runFault]; exact plainly_other _)

/-- the exception about a value -/
def faultOf (p : Nat → Bool) (fn : DecFn) (v : Str) : Fault :=
  match excOf fn v with
  | .systemExit => .exit
  | _ => .value (complaint p fn v)

omit [PyUnicode] in
theorem given_error {s : Str} {x : Fault} : ¬ given s = .error x := by intro h; cases h

omit [PyUnicode] in
theorem raised_error {as : List Str} {x : Fault} (h : raised as = .error x) : x = .value as := by cases h; rfl

theorem float_error {β : Type} {p : Nat → Bool} {s : Str} {x : Fault} {f : Dbl → Except Fault β}
    (hf : ∀ a e, f a ≠ .error e) (h : (pyFloatF p s >>= f) = .error x) : x = .value (notFloat p s) := by
  unfold pyFloatF at h
  cases hs : pyFloat s with
  | ok a => rw [hs] at h; exact absurd h (hf a x)
  | error e => rw [hs] at h; cases h; rfl

theorem int_error {β : Type} {p : Nat → Bool} {s : Str} {x : Fault} {f : Int → Except Fault β}
    (hf : ∀ a e, f a ≠ .error e) (h : (pyIntF p s >>= f) = .error x) : x = .value (notInt p s) := by
  unfold pyIntF at h
  cases hs : pyInt s with
  | ok a => rw [hs] at h; exact absurd h (hf a x)
  | error e => rw [hs] at h; cases h; rfl

theorem run_fault {p : Nat → Bool} {fn : DecFn} {v : Str} {rec : RecInfo} {legs : Legs} {x : Fault}
    (hw : widthOK fn v.length = true) (h : runFault p fn v rec legs = .error x) :
    ¬ InDomain fn v ∧ x = faultOf p fn v := by
  have hd : ¬ InDomain fn v := by
    intro hd
    rcases runDec_spec fn v rec legs hw with ⟨_, y, hy⟩ | ⟨h1, _⟩
    · have := plainly_run p fn v rec legs
      unfold Plainly at this
      rw [h, hy] at this
      cases this
    · exact h1 hd
  refine ⟨hd, ?_⟩
  cases fn
  case f002 =>
    replace h : field_002F v = .error x := h
    unfold field_002F at h
    repeat' split at h
    all_goals first | exact absurd h given_error | exact raised_error h
  case f008 =>
    replace h : field_008F v = .error x := h
    unfold field_008F at h
    repeat' split at h
    all_goals first | exact absurd h given_error | exact raised_error h
  case f020 =>
    replace h : field_020F v = .error x := h
    unfold field_020F at h
    repeat' split at h
    all_goals first | exact absurd h given_error | exact raised_error h
  case f021 =>
    replace h : field_021F v legs = .error x := h
    unfold field_021F at h
    simp only at h
    repeat' split at h
    all_goals first | exact absurd h given_error | exact raised_error h
  case f022 =>
    replace h : field_022F v = .error x := h
    unfold field_022F at h
    simp only at h
    repeat' split at h
    all_goals first | exact absurd h given_error | exact raised_error h
  case f023 =>
    replace h : shortF _ v = .error x := h
    unfold shortF at h
    simp only at h
    repeat' split at h
    all_goals first | exact absurd h given_error | exact raised_error h
  case f024 =>
    replace h : shortF _ v = .error x := h
    unfold shortF at h
    simp only at h
    repeat' split at h
    all_goals first | exact absurd h given_error | exact raised_error h
  case f025 =>
    replace h : shortF _ v = .error x := h
    unfold shortF at h
    simp only at h
    repeat' split at h
    all_goals first | exact absurd h given_error | exact raised_error h
  case f026 =>
    replace h : field_026F p v = .error x := h
    unfold field_026F at h
    simp only at h
    split at h
    · exact absurd h given_error
    · show x = .value (if _ then _ else _)
      split at h
      · next hc => rw [if_neg (by grind)]; exact raised_error h
      · next hc =>
        split at h
        · exact absurd h given_error
        · rw [if_pos (by grind)]
          exact float_error (fun a e => given_error) h
  case f027 =>
    replace h : field_027F p v = .error x := h
    unfold field_027F at h
    simp only at h
    show x = .value (notFloat p (if _ then _ else _))
    cases hs : strip v with
    | nil => rw [hs] at h; exact absurd h given_error
    | cons c t =>
      rw [hs, if_pos (by simp)] at h
      have hi : indexF (c :: t) 0 = .ok [c] := rfl
      rw [hi] at h
      replace h : (if [c] = py!"T" then _ else _) = _ := h
      by_cases hc : c = 84
      · subst hc
        rw [if_pos rfl] at h
        rw [if_pos (by rfl)]
        exact float_error (fun a e => given_error) h
      · rw [if_neg (by simpa using hc)] at h
        rw [if_neg (by simpa using hc)]
        exact float_error (fun a e => given_error) h
  case f032 =>
    replace h : field_032F p v = .error x := h
    unfold field_032F at h
    have := int_error (fun a e => given_error) h
    rw [show slice v 0 2 = v.take 2 by simp [slice]] at this
    exact this
  case f034 =>
    replace h : field_034F p v = .error x := h
    unfold field_034F at h
    simp only at h
    unfold faultOf excOf
    split at h
    · split at h
      · next hn => cases h; rw [hn]; rfl
      · next hn =>
        rw [if_pos (by simpa using hn)]
        exact float_error (fun a e => given_error) h
    · exact absurd h given_error
  case f039 =>
    replace h : field_039F p v = .error x := h
    unfold field_039F at h
    split at h
    · exact absurd h given_error
    · refine int_error (fun a e => ?_) h
      cases v with
      | nil => cases hw
      | cons c t => exact given_error
  case f045 =>
    replace h : freqF p v = .error x := h
    unfold freqF at h
    split at h
    · exact float_error (fun a e => given_error) h
    · exact absurd h given_error
  case f103 =>
    replace h : freqF p v = .error x := h
    unfold freqF at h
    split at h
    · exact float_error (fun a e => given_error) h
    · exact absurd h given_error
  case f062 =>
    replace h : tenthF p v = .error x := h
    unfold tenthF at h
    split at h
    · exact float_error (fun a e => by simp) h
    · exact absurd h given_error
  case f135 =>
    replace h : tenthF p v = .error x := h
    unfold tenthF at h
    split at h
    · exact float_error (fun a e => by simp) h
    · exact absurd h given_error
  case f072 =>
    replace h : field_072F v = .error x := h
    unfold field_072F at h
    repeat' split at h
    all_goals first | exact absurd h given_error | exact raised_error h
  case f082 =>
    replace h : field_082F v = .error x := h
    unfold field_082F at h
    match v, hw with
    | a :: b :: t, _ =>
      replace h : (if [b] = py!"B" then _ else _) = _ := h
      repeat' split at h
      all_goals first
        | exact absurd h given_error
        | skip
      replace h : (if [a] = py!"R" then _ else _) = _ := h
      split at h
      · exact absurd h given_error
      · exact raised_error h
  case f108 =>
    replace h : field_108F v = .error x := h
    unfold field_108F at h
    repeat' split at h
    all_goals first | exact absurd h given_error | exact raised_error h
  case f178 =>
    replace h : field_178F v = .error x := h
    unfold field_178F at h
    match v, hw with
    | a :: t, _ =>
      replace h : (if _ then _ else _) = _ := h
      repeat' split at h
      all_goals first | exact absurd h given_error | exact raised_error h
  case f182 =>
    replace h : field_182F v = .error x := h
    unfold field_182F at h
    repeat' split at h
    all_goals first | exact absurd h given_error | exact raised_error h
  case f269 =>
    replace h : field_269F p v = .error x := h
    unfold field_269F at h
    split at h
    · exact float_error (fun a e => by simp) h
    · exact absurd h given_error
  case f270 =>
    replace h : field_270F v = .error x := h
    unfold field_270F at h
    repeat' split at h
    all_goals first | exact absurd h given_error | exact raised_error h
  all_goals exact absurd trivial hd

/-- the exception of a field, if it is refused -/
theorem run_fault_iff {p : Nat → Bool} {f : Field} {rec : RecInfo} {legs : Legs} {x : Fault}
    (hw : widthOK f.dec f.value.length = true) :
    runFault p f.dec f.value rec legs = .error x ↔ ¬ InDomain f.dec f.value ∧ x = faultOf p f.dec f.value := by
  refine ⟨run_fault hw, fun ⟨h1, h2⟩ => ?_⟩
  cases h : runFault p f.dec f.value rec legs with
  | error y => rw [h2, (run_fault hw h).2]
  | ok y =>
    have := plainly_run p f.dec f.value rec legs
    unfold Plainly at this
    rcases runDec_spec f.dec f.value rec legs hw with ⟨h3, _⟩ | ⟨_, h3⟩
    · exact absurd h3 h1
    · rw [h, h3] at this; cases this

theorem decodeRows_fault {p : Nat → Bool} {rec : RecInfo} {fs : List Field}
    (hok : ∀ f ∈ fs, widthOK f.dec f.value.length = true) {legs : Legs} {x : Fault} :
    decodeRowsF p rec fs legs = .error x ↔
      ∃ pre f post, fs = pre ++ f :: post ∧ (∀ g ∈ pre, InDomain g.dec g.value) ∧
        ¬ InDomain f.dec f.value ∧ x = faultOf p f.dec f.value := by
  induction fs generalizing legs with
  | nil => simp [decodeRowsF]
  | cons f fs ih =>
    have hf := @run_fault_iff _ p f rec legs
    simp only [decodeRowsF]
    cases hr : runFault p f.dec f.value rec legs with
    | error e =>
      obtain ⟨h1, h2⟩ := (hf (hok f (by simp))).1 hr
      constructor
      · intro h; cases h; exact ⟨[], f, fs, rfl, by simp, h1, h2⟩
      · rintro ⟨pre, g, post, a1, a2, a3, rfl⟩
        cases pre with
        | nil =>
          simp only [List.nil_append, List.cons.injEq] at a1
          rw [h2, a1.1]
        | cons b pre =>
          simp only [List.cons_append, List.cons.injEq] at a1
          have := a2 b (by simp)
          rw [← a1.1] at this
          exact absurd this h1
    | ok v =>
      have hd : InDomain f.dec f.value := Classical.byContradiction fun hd => by
        have := (hf (hok f (by simp))).2 ⟨hd, rfl⟩
        rw [hr] at this; cases this
      simp only
      have : ((decodeRowsF p rec fs (runDec f.dec f.value rec legs).legs).map
          (fun x => (⟨f.name, py!"'" ++ f.value ++ py!"'", v⟩ : Row) :: x) = .error x) ↔
          decodeRowsF p rec fs (runDec f.dec f.value rec legs).legs = .error x := by
        cases decodeRowsF p rec fs (runDec f.dec f.value rec legs).legs <;> simp [Except.map]
      rw [this, ih fun g hg => hok g (by simp [hg])]
      constructor
      · rintro ⟨pre, g, post, h1, h2, h3⟩
        refine ⟨f :: pre, g, post, by rw [h1]; rfl, ?_, h3⟩
        intro a ha
        rcases List.mem_cons.1 ha with rfl | ha
        · exact hd
        · exact h2 a ha
      · rintro ⟨pre, g, post, h1, h2, h3, h4⟩
        cases pre with
        | nil =>
          simp only [List.nil_append, List.cons.injEq] at h1
          rw [← h1.1] at h3
          exact absurd hd h3
        | cons a pre =>
          simp only [List.cons_append, List.cons.injEq] at h1
          exact ⟨pre, g, post, h1.2, fun b hb => h2 b (by simp [hb]), h3, h4⟩

theorem plainly_rows (p : Nat → Bool) (rec : RecInfo) (fs : List Field) (legs : Legs) :
    Plainly (decodeRowsF p rec fs legs) (decodeRows rec fs legs).res := by
  induction fs generalizing legs with
  | nil => rfl
  | cons f fs ih =>
    have h := plainly_run p f.dec f.value rec legs
    have hr := ih (runDec f.dec f.value rec legs).legs
    unfold Plainly at h hr
    simp only [decodeRowsF, decodeRows]
    unfold Plainly
    cases h1 : runFault p f.dec f.value rec legs with
    | error e =>
      rw [h1] at h
      rw [← h]
      rfl
    | ok v =>
      rw [h1] at h
      rw [← h]
      simp only [Except.mapError]
      rw [← hr]
      cases decodeRowsF p rec fs (runDec f.dec f.value rec legs).legs <;> rfl

/-- why `read` raises, with the section -/
theorem readF_error {r : Record} {line : Str} {x : Fault} :
    r.readF line = .error x ↔ (UnsupportedContinuation line ∨ UnsupportedRestriction r line) ∧
      ∃ k, Resolves line k ∧ x = .value (appComplaint k line) := by
  unfold Record.readF
  have hc := C09_read_raises_iff r line
  cases hr : (r.read line).res with
  | ok b =>
    constructor
    · intro h; cases h
    · rintro ⟨h, _⟩
      have := (hc .valueError).2 ⟨rfl, h⟩
      rw [hr] at this; cases this
  | error e =>
    obtain ⟨rfl, hu⟩ := (hc e).1 hr
    simp only [Except.error.injEq]
    have hid : Resolves line (r.read line).obj.ident := by
      rcases read_cases r line with ⟨_, h'⟩ | ⟨_, _, h'⟩ | ⟨_, k, d, hk, _, _, h'⟩
      · rw [h'] at hr; cases hr
      · rw [h'] at hr; cases hr
      · rw [h', (readAs_obj r).1]; exact resolve_iff.1 hk
    have hx : ∀ k, unknownApplication k line = .value (appComplaint k line) := by
      intro k
      have hs : ∀ i, slice line i (i + 1) = col line i := by
        intro i
        rw [slice_eq_cols]
        unfold cols col
        rw [show i + 1 - i = 1 by omega]
        cases h : line.drop i with
        | nil => rw [List.getElem?_eq_none (by simpa using h)]; rfl
        | cons a t =>
          have : line[i]? = some a := by
            have := congrArg (·[0]?) h
            simpa using this
          rw [this]; rfl
      unfold unknownApplication appComplaint
      rw [hs 56, hs 27]
      repeat' split
      all_goals rfl
    rw [hx]
    constructor
    · intro h; exact ⟨hu, _, hid, h.symm⟩
    · rintro ⟨_, k, hk, rfl⟩
      rw [resolves_functional hk hid]

theorem plainly_read (r : Record) (line : Str) : Plainly (r.readF line) (r.read line).res := by
  unfold Record.readF Plainly
  cases hr : (r.read line).res with
  | ok b => rfl
  | error e =>
    obtain ⟨rfl, _⟩ := (C09_read_raises_iff r line e).1 hr
    simp only [unknownApplication]
    repeat' split
    all_goals rfl

theorem plainly_decode (p : Nat → Bool) (r : Record) (output : Bool) (legs : Legs) :
    Plainly (r.decodeF p legs) (r.decode output legs).res := by
  have h := plainly_rows p r.info r.fields legs
  unfold Record.decodeF Record.decode
  simp only
  rw [← h]
  cases decodeRowsF p r.info r.fields legs <;> rfl

theorem plainly_parse (p : Nat → Bool) (line : Str) (output : Bool) (legs : Legs) :
    Plainly (parseF p line legs) (parse line output legs).res := by
  have h1 := plainly_read Record.new line
  have h2 := plainly_decode p (Record.new.read line).obj output legs
  unfold parseF parse
  simp only
  rw [← h1]
  cases Record.new.readF line with
  | error e => rfl
  | ok b =>
    cases b with
    | false => rfl
    | true =>
      simp only [Except.mapError]
      rw [← h2]
      cases (Record.new.read line).obj.decodeF p legs <;> rfl

theorem plainly_lines (p : Nat → Bool) (ls : List Str) (legs : Legs) :
    Plainly (parseLinesF p ls legs) (parseLines true ls legs).res := by
  induction ls generalizing legs with
  | nil => rfl
  | cons l ls ih =>
    have h := plainly_parse p l true legs
    unfold parseLinesF parseLines
    simp only
    rw [← h]
    cases parseF p l legs with
    | error e => rfl
    | ok b => exact ih _

theorem plainly_file (p : Nat → Bool) (f : FileObj) (legs : Legs) :
    Plainly (readFileF p f legs) (readFile f true legs).res := by
  unfold readFileF readFile
  cases f.readlines with
  | error e => rfl
  | ok ls => exact plainly_lines p ls legs

theorem plainly_files (p : Nat → Bool) (fs : List FileObj) (legs : Legs) :
    Plainly (readFilesF p fs legs) (readFiles fs legs).res := by
  induction fs generalizing legs with
  | nil => rfl
  | cons f fs ih =>
    have h := plainly_file p f legs
    unfold readFilesF readFiles
    simp only
    rw [← h]
    cases readFileF p f legs with
    | error e => rfl
    | ok b => exact ih _

theorem plainly_folder (p : Nat → Bool) (es : Option (List FileObj)) (legs : Legs) :
    Plainly (readFolderF p es legs) (readFolder es legs).res := by
  cases es with
  | none => rfl
  | some fs => exact plainly_files p fs legs

theorem plainly_searchLines (filters : Filters) (ls : List Str) (n : Nat) :
    Plainly (searchLinesF ls) (searchLines filters ls n).1 := by
  induction ls generalizing n with
  | nil => rfl
  | cons l ls ih =>
    have h := plainly_read Record.new l
    unfold searchLinesF searchLines
    simp only
    rw [← h]
    cases Record.new.readF l with
    | error e => rfl
    | ok b =>
      cases b with
      | false => exact ih _
      | true =>
        by_cases hk : filters.keep (Record.new.read l).obj.raw = true
        · simp only [Except.mapError, hk, if_true]; exact ih _
        · simp only [Except.mapError, hk]; exact ih _

theorem plainly_search (f : FileObj) (filters : Filters) : Plainly (searchF f) (search f filters).1 := by
  unfold searchF search
  cases f.readlines with
  | error e => rfl
  | ok ls => exact plainly_searchLines filters ls 0

end
end Arinc
