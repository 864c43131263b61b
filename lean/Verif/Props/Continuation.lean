import Verif.Lemmas.Cont
import Verif.Props.Samples
/-!
# C09 - C18: exceptions, continuation records, reuse of a `Record`

`r` is always an arbitrary prior state of the object, so every history of earlier calls is
covered. `t` is the record text: the line without surrounding whitespace.
-/
namespace Arinc
open Py Spec

section
variable [PyUnicode]

/-! ## C09 exceptions of `read` -/

/-- The line is a record of one of four sections, is a continuation record, and its application
    type is not supported. -/
def UnsupportedContinuation (line : Str) : Prop :=
  ∃ t k i, Padded line t ∧ IsRecord t ∧ Resolves line k ∧
    k ∈ [py!"ER", py!"EV", py!"HV", py!"PP"] ∧ contColumn k = some i ∧
    isAlnum (col t i) = true ∧ ¬ PrimaryNo (col t i) ∧ col line (i + 1) ∉ declaredApps k

/-- The line is an enroute airway restriction (EU) record of unsupported restriction type. Which
    types are supported depends on the continuation number left over from the previous record. -/
def UnsupportedRestriction (r : Record) (line : Str) : Prop :=
  ∃ t, Padded line t ∧ IsRecord t ∧ Resolves line (py!"EU") ∧
    cols line 15 17 ∉ [py!"AE", py!"TC", py!"NR"] ∧
    ¬ (PrimaryNo r.continuation ∧ cols line 15 17 = py!"SC")

/-- C09: `read` raises nothing but `ValueError`, exactly on the two kinds of line above. -/
theorem C09_read_raises_iff (r : Record) (line : Str) (e : Exc) :
    (r.read line).res = .error e ↔
      e = .valueError ∧ (UnsupportedContinuation line ∨ UnsupportedRestriction r line) := by
  have euMem : ∀ p : Bool, ∀ a : Str, a ∉ euTypes p ↔
      (a ∉ [py!"AE", py!"TC", py!"NR"] ∧ ¬ (p = true ∧ a = py!"SC")) := by
    intro p a
    cases p <;> simp [euTypes] <;> grind
  constructor
  · intro h
    rcases read_cases r line with ⟨_, h'⟩ | ⟨_, _, h'⟩ | ⟨hrec, k, d, hres, hd, hf, _⟩
    · rw [h'] at h; cases h
    · rw [h'] at h; cases h
    · have hk := resolve_iff.1 hres
      have hp := padded_strip line
      cases hi : contColumn k with
      | some i =>
        obtain ⟨d, hd, hf, hc, _, hl, h1 | h1⟩ := read_cont hp hrec hk hi r
        · rw [h1.2] at h; cases h
        · rw [h1.2] at h
          by_cases hnp : PrimaryNo (col (strip line) i)
          · rw [finish_primary hd hc r hnp] at h; cases h
          · rcases finish_cont hd hc r hnp with ⟨_, h2⟩ | ⟨ha, ⟨hr, h2⟩ | ⟨_, h2⟩ | ⟨_, _, h2⟩⟩
            · rw [h2] at h; cases h
            · rw [h2] at h; cases h
              exact ⟨rfl, .inl ⟨_, k, i, hp, hrec, hk, hr, hi, h1.1, hnp, ha⟩⟩
            · rw [h2] at h; cases h
            · rw [h2] at h; cases h
      | none =>
        obtain ⟨d, hd, hf, hc, _, hl, h1⟩ := read_noCont hp hrec hk hi r
        rw [h1] at h
        by_cases hEU : k = py!"EU"
        · subst hEU
          rcases finish_EU hd hl r with ⟨_, h2⟩ | ⟨ha, h2⟩
          · rw [h2] at h; cases h
          · rw [h2] at h; cases h
            rw [euMem, enter_primary_none hc] at ha
            exact ⟨rfl, .inr ⟨_, hp, hrec, hk, ha.1, ha.2⟩⟩
        · rw [finish_plain hd hc hEU] at h; cases h
  · rintro ⟨rfl, ⟨t, k, i, hp, ht, hk, hr, hi, hal, hnp, ha⟩ | ⟨t, hp, ht, hk, ha1, ha2⟩⟩
    · obtain ⟨d, hd, hf, hc, hs, hl, h1 | h1⟩ := read_cont hp ht hk hi r
      · rw [h1.1] at hal; cases hal
      · rw [h1.2]
        rw [← hs] at hnp
        rcases finish_cont hd hc r hnp with ⟨h3, _⟩ | ⟨_, ⟨_, h2⟩ | ⟨hhc, _⟩ | ⟨hnr, _⟩⟩
        · exact absurd h3 ha
        · rw [h2]
        · subst hhc; exact absurd hr (by decide)
        · exact absurd hr hnr
    · obtain ⟨d, hd, hf, hc, hs, hl, h1⟩ := read_noCont hp ht hk (by decide) r
      rw [h1]
      rcases finish_EU hd hl r with ⟨h3, _⟩ | ⟨_, h2⟩
      · exact absurd h3 ((euMem _ _).2 ⟨ha1, by rw [enter_primary_none hc]; exact ha2⟩)
      · rw [h2]

/-! ## C10 unsupported application types -/

/-- C10 (partial): for every section with a continuation column other than ER, EV, HV, PP (which
    raise) and HC (which accepts), a continuation record of unsupported application type is
    rejected with `False`, silently, leaving no fields. Missing: those five sections, for which
    it is false (`C10_refuted_raises`, `C10_refuted_accepts`). -/
theorem C10_unsupported_application_partial (r : Record) (line t k : Str) (i : Nat)
    (hp : Padded line t) (ht : IsRecord t) (hk : Resolves line k) (hi : contColumn k = some i)
    (hal : isAlnum (col t i) = true) (hnp : ¬ PrimaryNo (col t i))
    (ha : col line (i + 1) ∉ declaredApps k)
    (hx : k ∉ [py!"ER", py!"EV", py!"HV", py!"PP", py!"HC"]) :
    (r.read line).res = .ok false ∧ (r.read line).out = [] ∧ (r.read line).obj.fields = [] := by
  obtain ⟨d, hd, hf, hc, hs, hl, h1 | h1⟩ := read_cont hp ht hk hi r
  · rw [h1.1] at hal; cases hal
  · rw [← hs] at hnp
    rcases finish_cont hd hc r hnp with ⟨h3, _⟩ | ⟨_, ⟨hr, _⟩ | ⟨hhc, _⟩ | ⟨_, _, h2⟩⟩
    · exact absurd h3 ha
    · exfalso; revert hx hr; simp [raisers]; grind
    · subst hhc; exact absurd hx (by decide)
    · rw [h1.2, h2]; exact ⟨rfl, rfl, rfl⟩

/-! ## C11 accepted continuation records -/

/-- C11 (partial): an accepted continuation record of any section except HC has an application
    type that the section declares. Missing: HC, for which it is false (`C11_refuted`). -/
theorem C11_declared_application_partial (r : Record) (line : Str) (hn : NoLeadingSpace line)
    (h : (r.read line).res = .ok true) (i : Nat)
    (hi : contColumn (r.read line).obj.ident = some i)
    (hnp : (r.read line).obj.primary = false) (hx : (r.read line).obj.ident ≠ py!"HC") :
    col (r.read line).obj.raw (i + 1) ∈ declaredApps (r.read line).obj.ident ∧
    ∃ d, (r.read line).obj.definition = some d ∧
      d.continuations = some (declaredApps (r.read line).obj.ident) := by
  obtain ⟨k, d, l, ha⟩ := accepted h
  have hk : (r.read line).obj.ident = k := by rw [ha.read]; rfl
  have hraw : (r.read line).obj.raw = strip line := by rw [ha.read]; rfl
  rw [hk] at hi hx ⊢
  have hd0 : (r.read line).obj.definition = some d := by rw [ha.read]; rfl
  have hc : d.contIdx = some i := by rw [ha.facts.cont, hi]
  refine ⟨?_, d, hd0, continuations_eq ha.lookup hc⟩
  rw [hraw]
  have hlt := (ha.facts.withCont i hc).1
  have hcol : col line (i + 1) = col (strip line) (i + 1) := by
    rw [col_eq_pick, col_eq_pick]
    exact pick_strip ha.isRec hn (by intro c hc; simp at hc; omega)
  rw [← hcol]
  have hp' : (r.enter line k d).primary = false := by
    rw [ha.read] at hnp; exact hnp
  have hsel := ha.select
  rw [hp'] at hsel
  have hsel : d.onCont.select line = .ok l := hsel
  rcases select_cont ha.lookup hc line with ⟨h1, _⟩ | ⟨_, ⟨_, hs⟩ | ⟨hhc, _⟩ | ⟨_, _, hs⟩⟩
  · exact h1
  · rw [hs] at hsel; cases hsel
  · exact absurd hhc hx
  · rw [hs] at hsel; cases hsel; exact absurd rfl ha.ne

/-! ## C12 bad continuation numbers -/

/-- The line is a record of a section with a continuation column `i` holding a character that is
    neither a letter nor numeric. -/
def BadContinuationNo (line t k : Str) (i : Nat) : Prop :=
  Padded line t ∧ IsRecord t ∧ Resolves line k ∧ contColumn k = some i ∧ isAlnum (col t i) = false

/-- C12: such a line is rejected after printing exactly these three lines. -/
theorem C12_bad_continuation_no (r : Record) (line t k : Str) (i : Nat)
    (h : BadContinuationNo line t k i) :
    (r.read line).res = .ok false ∧ ∃ nm, recordName k = some nm ∧
      (r.read line).out =
        [.line (py!"Unsupported " ++ nm ++ py!" Continuation Record Number: \"" ++ col t i ++ py!"\""),
         .line (py!"Valid Continuation Record Numbers are 0, 1, 2 (through 9) A, B, C (through Z)"),
         .line (py!"Record: " ++ t)] := by
  obtain ⟨hp, ht, hk, hi, hal⟩ := h
  obtain ⟨d, hd, hf, hc, hs, hl, h1 | h1⟩ := read_cont hp ht hk hi r
  · rw [h1.2]
    obtain ⟨nm, hnm⟩ := (hf.withCont i hc).2.1
    have e : recordName k = some nm := by rw [← name_of hd hi]; exact hnm
    refine ⟨rfl, nm, e, ?_⟩
    simp only [e, Option.getD_some]
    rfl
  · rw [hal] at h1; cases h1.1

/-- C12: in every other case `read` prints nothing at all. -/
theorem C12_otherwise_silent (r : Record) (line : Str)
    (h : ¬ ∃ t k i, BadContinuationNo line t k i) : (r.read line).out = [] := by
  rcases read_cases r line with ⟨_, h'⟩ | ⟨_, _, h'⟩ | ⟨hrec, k, d, hres, hd, hf, _⟩
  · rw [h']
  · rw [h']
  · have hk := resolve_iff.1 hres
    have hp := padded_strip line
    cases hi : contColumn k with
    | some i =>
      obtain ⟨d, hd, hf, hc, _, hl, h1 | h1⟩ := read_cont hp hrec hk hi r
      · exact absurd ⟨_, k, i, hp, hrec, hk, hi, h1.1⟩ h
      · rw [h1.2]; exact finish_out _ _ _
    | none =>
      obtain ⟨d, hd, hf, hc, _, hl, h1⟩ := read_noCont hp hrec hk hi r
      rw [h1]; exact finish_out _ _ _

/-! ## C13, C14 primary() and hasCont() -/

/-- C13: after an accepted read of a section with a continuation column, `primary()` and
    `hasCont()` report that column. -/
theorem C13_primary_reports_column (r : Record) (line : Str) (h : (r.read line).res = .ok true)
    (i : Nat) (hi : contColumn (r.read line).obj.ident = some i) :
    ∃ t, Padded line t ∧ IsRecord t ∧
      ((r.read line).obj.primary = true ↔ col t i = py!"0" ∨ col t i = py!"1") ∧
      ((r.read line).obj.hasCont = true ↔ col t i = py!"1") := by
  obtain ⟨k, d, l, ha⟩ := accepted h
  have hk : (r.read line).obj.ident = k := by rw [ha.read]; rfl
  rw [hk] at hi
  have hc : d.contIdx = some i := by rw [ha.facts.cont, hi]
  have hp : (r.read line).obj.primary = (r.enter line k d).primary := by rw [ha.read]; rfl
  have hct : (r.read line).obj.continuation = col (strip line) i := by
    rw [ha.read]; exact enter_cont (k := k) hc
  refine ⟨_, padded_strip line, ha.isRec, ?_, ?_⟩
  · rw [hp]; exact enter_primary hc
  · unfold Record.hasCont
    rw [hp, hct]
    by_cases h1 : col (strip line) i = py!"1"
    · have := (enter_primary (r := r) (k := k) hc).2 (.inr h1)
      simp [this, h1]
    · cases hp1 : (r.enter line k d).primary <;> simp [h1]

omit [PyUnicode] in
/-- C13: `hasCont()` implies `primary()` in every state; both are `False` on a fresh object. -/
theorem C13_hasCont_primary (r : Record) (h : r.hasCont = true) : r.primary = true := by
  unfold Record.hasCont at h
  cases hp : r.primary with
  | true => rfl
  | false => simp [hp] at h

omit [PyUnicode] in
theorem C13_fresh : Record.new.primary = false ∧ Record.new.hasCont = false := ⟨rfl, rfl⟩

/-- C14 (partial): for sections with a continuation column, `primary()` is true after reading a
    record whose number is 0 or 1. Missing: AS, EU, 'R ', RA and TC, for which it is false
    (`C14_refuted`). -/
theorem C14_primary_partial (r : Record) (line t k : Str) (i : Nat)
    (hp : Padded line t) (ht : IsRecord t) (hk : Resolves line k) (hi : contColumn k = some i)
    (hc : col t i = py!"0" ∨ col t i = py!"1") (h : (r.read line).res = .ok true) :
    (r.read line).obj.primary = true := by
  have hid : (r.read line).obj.ident = k := by
    obtain ⟨k', d, l, ha⟩ := accepted h
    have : k' = k := resolves_functional (resolve_iff.1 ha.res) hk
    rw [ha.read]; exact this
  obtain ⟨t', hp', ht', h1, _⟩ := C13_primary_reports_column r line h i (by rw [hid]; exact hi)
  have : t' = t := by rw [← isRecord_strip hp' ht', ← isRecord_strip hp ht]
  rw [h1, this]; exact hc

/-- C14 is false for AS, EU, 'R ', RA and TC: *every* accepted record of these sections is
    reported as not primary by a fresh object. -/
theorem C14_refuted (line : Str) (h : (Record.new.read line).res = .ok true)
    (hk : (Record.new.read line).obj.ident ∈ [py!"AS", py!"EU", py!"R ", py!"RA", py!"TC"]) :
    (Record.new.read line).obj.primary = false := by
  obtain ⟨k, d, l, ha⟩ := accepted h
  have e : (Record.new.read line).obj.ident = k := by rw [ha.read]; rfl
  rw [e] at hk
  have hc : d.contIdx = none := by
    rw [ha.facts.cont]; unfold contColumn; rw [if_pos hk]
  have hp : (Record.new.read line).obj.primary = (Record.new.enter line k d).primary := by
    rw [ha.read]; rfl
  rw [hp, ← Bool.not_eq_true, enter_primary_none hc]
  decide

/-! ## C15, C16 reuse of an object -/

/-- C15: whatever was read before, a line that is not an EU record gives the same result or
    exception and the same output as on a fresh object, and if accepted the same fields, ident
    and raw text. -/
theorem C15_reuse (r : Record) (line : Str) (hEU : ¬ Resolves line (py!"EU")) :
    (r.read line).res = (Record.new.read line).res ∧
    (r.read line).out = (Record.new.read line).out ∧
    ((r.read line).res = .ok true →
      (r.read line).obj.fields = (Record.new.read line).obj.fields ∧
      (r.read line).obj.ident = (Record.new.read line).obj.ident ∧
      (r.read line).obj.raw = (Record.new.read line).obj.raw) := by
  by_cases hw : ∃ t, Padded line t ∧ IsRecord t
  · obtain ⟨t, hp, ht⟩ := hw
    cases hres : resolve line with
    | none =>
      have key : ∀ r : Record, r.read line = ⟨.ok false, { r with raw := strip line }, []⟩ := by
        intro r
        rcases read_cases r line with ⟨hw, _⟩ | ⟨_, _, h'⟩ | ⟨_, k, d, h', _⟩
        · exact absurd ⟨t, hp, ht⟩ hw
        · exact h'
        · rw [hres] at h'; cases h'
      rw [key r, key Record.new]
      exact ⟨rfl, rfl, fun h => nomatch h⟩
    | some k =>
      have hk := resolve_iff.1 hres
      cases hi : contColumn k with
      | some i =>
        obtain ⟨d, hd, hf, hc, hs, hl, h1⟩ := read_cont hp ht hk hi r
        obtain ⟨d', hd', hf', hc', hs', hl', h1'⟩ := read_cont hp ht hk hi Record.new
        have : d' = d := by rw [hd] at hd'; exact (Option.some.inj hd').symm
        subst this
        rcases h1 with ⟨ha, h1⟩ | ⟨ha, h1⟩
        · rcases h1' with ⟨_, h1'⟩ | ⟨ha', _⟩
          · rw [h1, h1']; exact ⟨rfl, rfl, fun h => nomatch h⟩
          · rw [ha] at ha'; cases ha'
        · rcases h1' with ⟨ha', _⟩ | ⟨_, h1'⟩
          · rw [ha] at ha'; cases ha'
          · rw [h1, h1']
            have hpr : (r.enter line k d').primary = (Record.new.enter line k d').primary := by
              rw [Bool.eq_iff_iff, enter_primary hc, enter_primary hc]
            obtain ⟨e1, e2⟩ := finish_congr (r := r.enter line k d')
              (r' := Record.new.enter line k d') (d := d') (line := line) (by rw [hpr])
            refine ⟨e1, by rw [finish_out, finish_out], fun h => ⟨e2 h, ?_, ?_⟩⟩
            · rw [finish_obj.1, finish_obj.1]; rfl
            · rw [finish_obj.2.1, finish_obj.2.1]; rfl
      | none =>
        obtain ⟨d, hd, hf, hc, hs, hl, h1⟩ := read_noCont hp ht hk hi r
        obtain ⟨d', hd', hf', hc', hs', hl', h1'⟩ := read_noCont hp ht hk hi Record.new
        have : d' = d := by rw [hd] at hd'; exact (Option.some.inj hd').symm
        subst this
        have hkne : k ≠ py!"EU" := by rintro rfl; exact hEU hk
        obtain ⟨_, l, hlne, hsel⟩ := select_plain hd hc hkne
        rw [h1, h1']
        obtain ⟨e1, e2⟩ := finish_congr (r := r.enter line k d')
          (r' := Record.new.enter line k d') (d := d') (line := line) (by rw [hsel, hsel])
        refine ⟨e1, by rw [finish_out, finish_out], fun h => ⟨e2 h, ?_, ?_⟩⟩
        · rw [finish_obj.1, finish_obj.1]; rfl
        · rw [finish_obj.2.1, finish_obj.2.1]; rfl
  · have key : ∀ r : Record, r.read line = ⟨.ok false, r, []⟩ := by
      intro r
      rcases read_cases r line with ⟨_, h'⟩ | ⟨hrec, _⟩ | ⟨hrec, _⟩
      · exact h'
      · exact absurd ⟨_, padded_strip line, hrec⟩ hw
      · exact absurd ⟨_, padded_strip line, hrec⟩ hw
    rw [key r, key Record.new]
    exact ⟨rfl, rfl, fun h => nomatch h⟩

/-- C16 (partial): for a line of a section with a continuation column, `primary()` and
    `hasCont()` after an accepted read do not depend on the object's history. Missing: the
    sections without one, for which it is false (`C16_refuted`). -/
theorem C16_not_stale_partial (r : Record) (line : Str) (h : (r.read line).res = .ok true)
    (i : Nat) (hi : contColumn (r.read line).obj.ident = some i) :
    (r.read line).obj.primary = (Record.new.read line).obj.primary ∧
    (r.read line).obj.hasCont = (Record.new.read line).obj.hasCont := by
  obtain ⟨k, d, l, ha⟩ := accepted h
  have hid : (r.read line).obj.ident = k := by rw [ha.read]; rfl
  have hEU : ¬ Resolves line (py!"EU") := by
    intro hEU
    have : k = py!"EU" := resolves_functional (resolve_iff.1 ha.res) hEU
    rw [hid, this] at hi
    have h0 : contColumn (py!"EU") = none := by decide
    rw [h0] at hi; cases hi
  obtain ⟨e1, _, e3⟩ := C15_reuse r line hEU
  have h' : (Record.new.read line).res = .ok true := by rw [← e1]; exact h
  have hi' : contColumn (Record.new.read line).obj.ident = some i := by rw [← (e3 h).2.1]; exact hi
  obtain ⟨t, hp, ht, p1, c1⟩ := C13_primary_reports_column r line h i hi
  obtain ⟨t', hp', ht', p2, c2⟩ := C13_primary_reports_column Record.new line h' i hi'
  have : t' = t := by rw [← isRecord_strip hp' ht', ← isRecord_strip hp ht]
  subst this
  exact ⟨by rw [Bool.eq_iff_iff, p1, p2], by rw [Bool.eq_iff_iff, c1, c2]⟩

/-! ## C17 failed reads -/

/-- The fields of the object are those that reading its own raw text gives (or there are none). -/
def Coherent (o : Record) : Prop :=
  o.fields = [] ∨ ∃ r₀ : Record, (r₀.read o.raw).res = .ok true ∧ (r₀.read o.raw).obj.fields = o.fields

/-- C17 (partial): an accepted line without leading whitespace makes the object coherent; a
    failed read keeps it coherent if the line is not record-shaped, or if it is a continuation
    record of unsupported application type in a section that does not raise. Missing: the other
    failures, for which it is false (`C17_refuted_section`, `C17_refuted_continuation`,
    `C17_refuted_raise`). -/
theorem C17_coherent_partial (r : Record) (line : Str) (hr : Coherent r) :
    ((r.read line).res = .ok true → NoLeadingSpace line → Coherent (r.read line).obj) ∧
    ((¬ ∃ t, Padded line t ∧ IsRecord t) → Coherent (r.read line).obj) ∧
    ((r.read line).res = .ok false → (r.read line).out = [] → (∃ k, Resolves line k) →
      Coherent (r.read line).obj) := by
  refine ⟨?_, ?_, ?_⟩
  · intro h hn
    right
    refine ⟨r, ?_⟩
    obtain ⟨k, d, l, ha⟩ := accepted h
    have hraw : (r.read line).obj.raw = strip line := by rw [ha.read]; rfl
    rw [hraw, ← read_strip hn]
    exact ⟨h, rfl⟩
  · intro h
    have : r.read line = ⟨.ok false, r, []⟩ := by
      rcases read_cases r line with ⟨_, h'⟩ | ⟨hrec, _⟩ | ⟨hrec, _⟩
      · exact h'
      · exact absurd ⟨_, padded_strip line, hrec⟩ h
      · exact absurd ⟨_, padded_strip line, hrec⟩ h
    rw [this]; exact hr
  · intro h hout ⟨k, hk⟩
    rcases read_cases r line with ⟨_, h'⟩ | ⟨_, hnone, _⟩ | ⟨hrec, k', d, hres, hd, hf, _⟩
    · rw [h']; exact hr
    · rw [resolve_iff.2 hk] at hnone; cases hnone
    · have hp := padded_strip line
      cases hi : contColumn k with
      | some i =>
        obtain ⟨d, hd, hf, hc, hs, hl, h1 | h1⟩ := read_cont hp hrec hk hi r
        · rw [h1.2] at hout; cases hout
        · rw [h1.2] at h ⊢
          by_cases hnp : PrimaryNo (col (strip line) i)
          · rw [finish_primary hd hc r hnp] at h; cases h
          · rcases finish_cont hd hc r hnp with ⟨_, h2⟩ | ⟨_, ⟨_, h2⟩ | ⟨_, h2⟩ | ⟨_, _, h2⟩⟩
            · rw [h2] at h; cases h
            · rw [h2] at h; cases h
            · rw [h2] at h; cases h
            · rw [h2]; left; rfl
      | none =>
        obtain ⟨d, hd, hf, hc, hs, hl, h1⟩ := read_noCont hp hrec hk hi r
        rw [h1] at h ⊢
        by_cases hEU : k = py!"EU"
        · subst hEU
          rcases finish_EU hd hl r with ⟨_, h2⟩ | ⟨_, h2⟩ <;> (rw [h2] at h; cases h)
        · rw [finish_plain hd hc hEU] at h; cases h

/-- C17: what the failed reads leave behind. A failed read either leaves the object alone, or
    leaves it without fields, or leaves the *old* fields under the *new* raw text. -/
theorem C17_what_is_left (r : Record) (line : Str) (h : (r.read line).res ≠ .ok true) :
    (r.read line).obj = r ∨
    ((r.read line).obj.raw = strip line ∧
      ((r.read line).obj.fields = [] ∨ (r.read line).obj.fields = r.fields)) := by
  rcases read_cases r line with ⟨_, h'⟩ | ⟨_, _, h'⟩ | ⟨_, k, d, _, _, _, h'⟩
  · left; rw [h']
  · right; rw [h']; exact ⟨rfl, .inr rfl⟩
  · right
    rw [h'] at h ⊢
    unfold Record.readAs Record.finish at h ⊢
    simp only at h ⊢
    split
    · exact ⟨rfl, .inr rfl⟩
    · next hc =>
      rw [if_neg hc] at h
      split
      · exact ⟨rfl, .inr rfl⟩
      · next l hs =>
        rw [hs] at h
        cases l with
        | nil => exact ⟨rfl, .inl rfl⟩
        | cons a b => exact absurd rfl h

/-! ## C18 enroute airway restrictions -/

/-- C18 is false for every line: a fresh object never reads an EU record as a primary record,
    whatever its continuation number. Seasonal closures (`SC`), which only exist as primary
    records, always raise; the others always get the layout of their continuation records (32, 17
    or 11 fields instead of 39, 24 or 18). -/
theorem C18_refuted (line t : Str) (hp : Padded line t) (ht : IsRecord t)
    (hk : Resolves line (py!"EU")) :
    (cols line 15 17 = py!"SC" → (Record.new.read line).res = .error .valueError) ∧
    ((Record.new.read line).res = .ok true →
      (Record.new.read line).obj.primary = false ∧
      (cols line 15 17, (Record.new.read line).obj.fields.length) ∈
        [(py!"AE", 32), (py!"TC", 17), (py!"NR", 11)]) := by
  constructor
  · intro hsc
    rw [C09_read_raises_iff]
    refine ⟨rfl, .inr ⟨t, hp, ht, hk, by rw [hsc]; decide, ?_⟩⟩
    rintro ⟨h, _⟩
    exact absurd h (by decide)
  · intro h
    obtain ⟨k, d, l, ha⟩ := accepted h
    have hkk : k = py!"EU" := resolves_functional (resolve_iff.1 ha.res) hk
    subst hkk
    have hid : (Record.new.read line).obj.ident = py!"EU" := by rw [ha.read]; rfl
    have hprim := C14_refuted line h (by rw [hid]; decide)
    refine ⟨hprim, ?_⟩
    have hp' : (Record.new.enter line (py!"EU") d).primary = false := by
      rw [ha.read] at hprim; exact hprim
    have hlen : (Record.new.read line).obj.fields.length = l.length := by
      rw [ha.read]; simp
    rw [hlen]
    have hsel := ha.select
    rw [hp'] at hsel
    have hl := select_layoutOf ha.lookup hsel
    have ht2 := length_line ha.isRec
    have happ : pick line (appColumns (py!"EU")) = cols line 15 17 := by
      rw [cols_eq_pick (by omega) (by omega)]; rfl
    rw [happ] at hl
    rcases select_EU ha.lookup false ht2 with ⟨hm, _⟩ | ⟨_, he⟩
    · have hm : cols line 15 17 ∈ [py!"AE", py!"TC", py!"NR"] := hm
      simp only [List.mem_cons, List.not_mem_nil, or_false] at hm
      rcases hm with hm | hm | hm <;> rw [hm] at hl ⊢ <;> rw [hl] <;> decide +kernel
    · rw [he] at hsel; cases hsel

/-- C18 (partial): the primary layout is used when the object happens to have read, just before,
    a record with continuation number 0 or 1. Missing: every other history, including a fresh
    object, for which it is false (`C18_refuted`). -/
theorem C18_primary_layout_partial (r : Record) (line t : Str) (hp : Padded line t)
    (ht : IsRecord t) (hk : Resolves line (py!"EU")) (hr : PrimaryNo r.continuation)
    (happ : cols line 15 17 ∈ [py!"AE", py!"TC", py!"SC", py!"NR"]) :
    (r.read line).res = .ok true ∧ (r.read line).obj.primary = true ∧
    (cols line 15 17, (r.read line).obj.fields.length) ∈
      [(py!"AE", 39), (py!"TC", 24), (py!"SC", 24), (py!"NR", 18)] := by
  have h : (r.read line).res = .ok true := by
    obtain ⟨d, hd, hf, hc, hs, hl, h1⟩ := read_noCont hp ht hk (by decide) r
    have hpr := (enter_primary_none (r := r) (line := line) (k := py!"EU") hc).2 hr
    rcases finish_EU hd hl r with ⟨_, h2⟩ | ⟨h2, _⟩
    · rw [h1, h2]
    · rw [hpr] at h2; exact absurd happ h2
  obtain ⟨k, d, l, ha⟩ := accepted h
  have hkk : k = py!"EU" := resolves_functional (resolve_iff.1 ha.res) hk
  subst hkk
  have hc : d.contIdx = none := by rw [ha.facts.cont]; decide
  have hpr := (enter_primary_none (r := r) (line := line) (k := py!"EU") hc).2 hr
  refine ⟨h, by rw [ha.read]; exact hpr, ?_⟩
  have hlen : (r.read line).obj.fields.length = l.length := by rw [ha.read]; simp
  rw [hlen]
  have hsel := ha.select
  rw [hpr] at hsel
  have hl := select_layoutOf ha.lookup hsel
  have ht2 := length_line ha.isRec
  have happ' : pick line (appColumns (py!"EU")) = cols line 15 17 := by
    rw [cols_eq_pick (by omega) (by omega)]; rfl
  rw [happ'] at hl
  simp only [List.mem_cons, List.not_mem_nil, or_false] at happ
  rcases happ with hm | hm | hm | hm <;> rw [hm] at hl ⊢ <;> rw [hl] <;> decide +kernel

end

/-! ## Refutations and non-vacuity -/

attribute [local instance] Py.Tables.cpython311

/-- C09, C10: an enroute airway continuation record of application type Z raises -/
theorem C10_refuted_raises : ∃ line t k i, Padded line t ∧ IsRecord t ∧ Resolves line k ∧
    contColumn k = some i ∧ isAlnum (col t i) = true ∧ ¬ PrimaryNo (col t i) ∧
    col line (i + 1) ∉ declaredApps k ∧ (Record.new.read line).res = .error .valueError :=
  ⟨Sample.airwayContZ, Sample.airwayContZ, py!"ER", 38, padded_self _,
   isRecord_of (by decide +kernel) (by decide +kernel) (by decide +kernel),
   .byPair (by decide +kernel), by decide, by decide +kernel, by decide +kernel, by decide +kernel,
   by decide +kernel⟩

/-- C10, C11: a heliport terminal waypoint continuation record of application type Z is accepted -/
theorem C11_refuted : ∃ line i, NoLeadingSpace line ∧ (Record.new.read line).res = .ok true ∧
    contColumn (Record.new.read line).obj.ident = some i ∧
    (Record.new.read line).obj.primary = false ∧
    col (Record.new.read line).obj.raw (i + 1) ∉ declaredApps (Record.new.read line).obj.ident :=
  ⟨Sample.heliWaypointContZ, 21, by intro c hc; cases hc; decide, by decide +kernel,
   by decide +kernel, by decide +kernel, by decide +kernel⟩

/-- C10 (hypotheses are met): an airport continuation record of application type Z -/
example : IsRecord Sample.airportContZ ∧ Resolves Sample.airportContZ (py!"PA") ∧
    contColumn (py!"PA") = some 21 ∧ isAlnum (col Sample.airportContZ 21) = true ∧
    ¬ PrimaryNo (col Sample.airportContZ 21) ∧
    col Sample.airportContZ 22 ∉ declaredApps (py!"PA") :=
  ⟨isRecord_of (by decide +kernel) (by decide +kernel) (by decide +kernel),
   .bySplit (by decide +kernel) (by decide +kernel), by decide, by decide +kernel, by decide +kernel,
   by decide +kernel⟩

/-- C11 (hypotheses are met): an airport continuation record of application type A -/
example : NoLeadingSpace Sample.airportCont ∧ (Record.new.read Sample.airportCont).res = .ok true ∧
    contColumn (Record.new.read Sample.airportCont).obj.ident = some 21 ∧
    (Record.new.read Sample.airportCont).obj.primary = false :=
  ⟨by intro c hc; cases hc; decide, by decide +kernel, by decide +kernel, by decide +kernel⟩

/-- C12 (hypotheses are met): an airport record with a blank continuation number -/
example : BadContinuationNo Sample.airportBadCont Sample.airportBadCont (py!"PA") 21 :=
  ⟨padded_self _, isRecord_of (by decide +kernel) (by decide +kernel) (by decide +kernel),
   .bySplit (by decide +kernel) (by decide +kernel), by decide, by decide +kernel⟩

/-- C13, C14, C16 (hypotheses are met) -/
example : (Record.new.read Sample.airport).res = .ok true ∧
    contColumn (Record.new.read Sample.airport).obj.ident = some 21 ∧
    (Record.new.read Sample.airport).obj.primary = true ∧
    (Record.new.read Sample.airport).obj.hasCont = true :=
  ⟨by decide +kernel, by decide +kernel, by decide +kernel, by decide +kernel⟩

/-- C14 (refutation is not vacuous): MORA, cruising table and restriction records are accepted -/
example : (Record.new.read Sample.mora).res = .ok true ∧
    (Record.new.read Sample.mora).obj.ident = py!"AS" ∧
    (Record.new.read Sample.cruise).res = .ok true ∧
    (Record.new.read Sample.cruise).obj.ident = py!"TC" ∧
    (Record.new.read Sample.restriction).res = .ok true ∧
    (Record.new.read Sample.restriction).obj.ident = py!"EU" :=
  ⟨by decide +kernel, by decide +kernel, by decide +kernel, by decide +kernel, by decide +kernel,
   by decide +kernel⟩

/-- C15 is false for EU: after an airport record, a seasonal closure that a fresh object
    refuses with `ValueError` is accepted, and a cruise table restriction gets other fields. -/
theorem C15_refuted_EU : ∃ line₁ line₂ line₃,
    let r := (Record.new.read line₁).obj
    (Record.new.read line₂).res = .error .valueError ∧ (r.read line₂).res = .ok true ∧
    (Record.new.read line₃).res = .ok true ∧ (r.read line₃).res = .ok true ∧
    (r.read line₃).obj.fields ≠ (Record.new.read line₃).obj.fields :=
  ⟨Sample.airport, Sample.restrictionSC, Sample.restriction, by decide +kernel, by decide +kernel,
   by decide +kernel, by decide +kernel, by decide +kernel⟩

/-- C15 (hypothesis is met, with a non-trivial history) -/
example : ¬ Resolves Sample.mora (py!"EU") := by
  intro h
  have := resolves_functional h (.byPair (by decide +kernel))
  exact absurd this (by decide +kernel)

/-- C16 is false for the sections without a continuation column: a MORA record is reported as a
    primary record with continuations if the object read an airport record before. -/
theorem C16_refuted : ∃ line₁ line₂,
    let r := (Record.new.read line₁).obj
    (r.read line₂).res = .ok true ∧ (r.read line₂).obj.primary = true ∧
    (r.read line₂).obj.hasCont = true ∧ (Record.new.read line₂).obj.primary = false :=
  ⟨Sample.airport, Sample.mora, by decide +kernel, by decide +kernel, by decide +kernel,
   by decide +kernel⟩

/-- C17 is false: after an unsupported section the object carries the airport's fields under the
    raw text of a line that no object can read. -/
theorem C17_refuted_section : ∃ line₁ line₂,
    let r := (Record.new.read line₁).obj
    Coherent r ∧ (r.read line₂).res = .ok false ∧ ¬ Coherent (r.read line₂).obj := by
  refine ⟨Sample.airport, Sample.noSection, ?_, by decide +kernel, ?_⟩
  · exact .inr ⟨Record.new, by decide +kernel, by decide +kernel⟩
  · rintro (h | ⟨r₀, h, _⟩)
    · exact absurd h (by decide +kernel)
    · have hraw : ((Record.new.read Sample.airport).obj.read Sample.noSection).obj.raw =
        Sample.noSection := by decide +kernel
      rw [hraw] at h
      obtain ⟨k, d, l, ha⟩ := accepted h
      have := ha.res
      rw [show resolve Sample.noSection = none by decide +kernel] at this
      cases this

/-- C17 is false after a bad continuation number ... -/
theorem C17_refuted_continuation : ∃ line₁ line₂,
    let r := (Record.new.read line₁).obj
    Coherent r ∧ (r.read line₂).res = .ok false ∧ ¬ Coherent (r.read line₂).obj := by
  refine ⟨Sample.airport, Sample.airportBadCont, ?_, by decide +kernel, ?_⟩
  · exact .inr ⟨Record.new, by decide +kernel, by decide +kernel⟩
  · rintro (h | ⟨r₀, h, _⟩)
    · exact absurd h (by decide +kernel)
    · have hraw : ((Record.new.read Sample.airport).obj.read Sample.airportBadCont).obj.raw =
        Sample.airportBadCont := by decide +kernel
      rw [hraw] at h
      have hb : BadContinuationNo Sample.airportBadCont Sample.airportBadCont (py!"PA") 21 :=
        ⟨padded_self _, isRecord_of (by decide +kernel) (by decide +kernel) (by decide +kernel),
         .bySplit (by decide +kernel) (by decide +kernel), by decide, by decide +kernel⟩
      rw [(C12_bad_continuation_no r₀ _ _ _ _ hb).1] at h
      cases h

/-- ... and after an exception. -/
theorem C17_refuted_raise : ∃ line₁ line₂,
    let r := (Record.new.read line₁).obj
    Coherent r ∧ (r.read line₂).res = .error .valueError ∧ ¬ Coherent (r.read line₂).obj := by
  refine ⟨Sample.airport, Sample.airwayContZ, ?_, by decide +kernel, ?_⟩
  · exact .inr ⟨Record.new, by decide +kernel, by decide +kernel⟩
  · rintro (h | ⟨r₀, h, _⟩)
    · exact absurd h (by decide +kernel)
    · have hraw : ((Record.new.read Sample.airport).obj.read Sample.airwayContZ).obj.raw =
        Sample.airwayContZ := by decide +kernel
      rw [hraw] at h
      have : (r₀.read Sample.airwayContZ).res = .error .valueError := by
        rw [C09_read_raises_iff]
        exact ⟨rfl, .inl ⟨Sample.airwayContZ, py!"ER", 38, padded_self _,
          isRecord_of (by decide +kernel) (by decide +kernel) (by decide +kernel),
          .byPair (by decide +kernel), by decide, by decide, by decide +kernel, by decide +kernel,
          by decide +kernel⟩⟩
      rw [this] at h
      cases h

/-- C18 (hypotheses of the partial theorem are met): after an airport record -/
example : PrimaryNo (Record.new.read Sample.airport).obj.continuation ∧
    cols Sample.restrictionSC 15 17 = py!"SC" := ⟨by decide +kernel, by decide +kernel⟩

/-- C18 (hypotheses are met): both a seasonal closure and a cruise table restriction with
    continuation number 0, i.e. primary records -/
example : IsRecord Sample.restrictionSC ∧ Resolves Sample.restrictionSC (py!"EU") ∧
    IsRecord Sample.restriction ∧ Resolves Sample.restriction (py!"EU") ∧
    col Sample.restriction 17 = py!"0" ∧ (Record.new.read Sample.restriction).res = .ok true :=
  ⟨isRecord_of (by decide +kernel) (by decide +kernel) (by decide +kernel),
   .byPair (by decide +kernel),
   isRecord_of (by decide +kernel) (by decide +kernel) (by decide +kernel),
   .byPair (by decide +kernel), by decide +kernel, by decide +kernel⟩

end Arinc
