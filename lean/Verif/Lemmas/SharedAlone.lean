import Verif.Lemmas.SharedRead
import Verif.Lemmas.Process
/-!
# Lemmas: when sharing a `Record` makes no difference
-/
namespace Arinc
open Py Spec
variable [PyUnicode]

/-! ### nobody calls `read` -/

/-- the values of this object -/
def View.just (r : Record) : View :=
  ⟨(· = r.ident), (· = r.raw), (· = r.continuation), (· = r.fields), (· = r.definition)⟩

variable {any good : View} {r : Record}

/-- everything known is that the object is as it was -/
structure View.Same (any : View) (r : Record) : Prop where
  ident : ∀ v, any.ident v → v = r.ident
  raw : ∀ v, any.raw v → v = r.raw
  cont : ∀ v, any.cont v → v = r.continuation
  fields : ∀ v, any.fields v → v = r.fields
  defn : ∀ v, any.defn v → v = r.definition

omit [PyUnicode] in
theorem just_same (r : Record) : ((View.just r).orInit r).Same r :=
  ⟨fun _ h => h.elim id id, fun _ h => h.elim id id, fun _ h => h.elim id id, fun _ h => h.elim id id,
    fun _ h => h.elim id id⟩

section
variable {α : Type} {post : Flags → List Event → α → Prop} {w : Flags}

omit [PyUnicode] in
theorem routeTypesSh_same (hs : any.Same r) {k : List (Str × Str) → Sh α} {out : List Event}
    (h : (k (routeTypes r.ident)).Ok any good post w out) : (routeTypesSh k).Ok any good post w out := by
  unfold routeTypes at h
  intro i h1 _; cases hs.ident i h1; dsimp only; split
  · next hi => rw [if_pos hi] at h; exact h
  next n1 =>
  intro i h1 _; cases hs.ident i h1; dsimp only; split
  · next hi => rw [if_neg n1, if_pos hi] at h; exact h
  next n2 =>
  rw [if_neg n1, if_neg n2] at h
  intro i h1 _; cases hs.ident i h1; dsimp only; split
  · next hi => rw [if_pos (.inl hi)] at h; exact h
  next n3 =>
  intro i h1 _; cases hs.ident i h1; dsimp only; split
  · next hi => rw [if_pos (.inr hi)] at h; exact h
  next n4 =>
  rw [if_neg (not_or.2 ⟨n3, n4⟩)] at h
  intro i h1 _; cases hs.ident i h1; dsimp only; split
  · next hi => rw [if_pos (.inl hi)] at h; exact h
  next n5 =>
  intro i h1 _; cases hs.ident i h1; dsimp only; split
  · next hi => rw [if_pos (.inr hi)] at h; exact h
  next n6 =>
  rw [if_neg (not_or.2 ⟨n5, n6⟩)] at h
  intro i h1 _; cases hs.ident i h1; dsimp only; split
  · next hi => rw [if_pos (.inl hi)] at h; exact h
  next n7 =>
  intro i h1 _; cases hs.ident i h1; dsimp only; split
  · next hi => rw [if_pos (.inr hi)] at h; exact h
  next n8 =>
  rw [if_neg (not_or.2 ⟨n7, n8⟩)] at h
  exact h

theorem decodeFieldSh_same (hs : any.Same r) {f : Field} {k : Except Exc PyVal → Sh α} {out : List Event}
    (h : (k (runDec f.dec f.value r.info legTypeDesc).res).Ok any good post w
      (out ++ (runDec f.dec f.value r.info legTypeDesc).out)) :
    (decodeFieldSh f k).Ok any good post w out := by
  unfold decodeFieldSh
  split
  · next hf =>
    rw [hf] at h
    simp only [runDec, quiet, List.append_nil] at h
    exact routeTypesSh_same hs h
  · next hf =>
    rw [hf] at h
    simp only [runDec, noisy] at h
    dsimp only
    split
    · next hb =>
      simp only [field_034] at h
      rw [if_pos hb.1, if_pos hb.2] at h
      intro i h1 _; cases hs.ident i h1
      intro t h1 _; cases hs.raw t h1
      simpa [Sh.Ok, Record.info] using h
    · next hb =>
      have : (field_034 f.value r.info.ident r.info.raw).2 = [] := by
        unfold field_034
        dsimp only
        split
        · next h1 =>
          split
          · next h2 => exact absurd ⟨h1, h2⟩ hb
          · rfl
        · rfl
      rw [this, List.append_nil, field_034_fst _ _ _ [] []] at h
      exact h
  · next fn h7 h34 =>
    rw [runDec_rec f.dec f.value ⟨[], []⟩ r.info legTypeDesc h7 h34]
    exact .prints h

theorem decodeRowsSh_same (hs : any.Same r) {k : Except Exc (List Row) → Sh α} {gs : List Field} {rows : List Row}
    {out : List Event}
    (h : (k ((decodeRows r.info gs legTypeDesc).res.map (rows ++ ·))).Ok any good post w
      (out ++ (decodeRows r.info gs legTypeDesc).out)) :
    (decodeRowsSh k gs rows).Ok any good post w out := by
  induction gs generalizing rows out with
  | nil => simpa [decodeRowsSh, decodeRows, Except.map] using h
  | cons g gs ih =>
    refine decodeFieldSh_same hs ?_
    simp only [decodeRows] at h
    have hl := (runDec_legs g.dec g.value r.info grown_init).2.2
    cases hr : (runDec g.dec g.value r.info legTypeDesc).res with
    | error e =>
      rw [hr] at h
      exact h
    | ok v =>
      rw [hr] at h
      obtain ⟨e1, e2, _⟩ := decodeRows_legs r.info gs hl
      simp only [e1, e2] at h
      refine ih ?_
      have e3 : ∀ x : Except Exc (List Row),
          (x.map (⟨g.name, py!"'" ++ g.value ++ py!"'", v⟩ :: ·)).map (rows ++ ·) =
            x.map (rows ++ [⟨g.name, py!"'" ++ g.value ++ py!"'", v⟩] ++ ·) := by
        intro x; cases x <;> simp [Except.map]
      rw [e3] at h
      rw [← List.append_assoc out] at h
      exact h

omit [PyUnicode] in
theorem primarySh_same (hs : any.Same r) {k : Bool → Sh α} {out : List Event}
    (h : (k r.primary).Ok any good post w out) : (primarySh k).Ok any good post w out := by
  unfold Record.primary at h
  cases hd : r.definition with
  | none =>
    rw [hd] at h
    intro d h1 _
    cases (hs.defn d h1).trans hd
    exact h
  | some d =>
    rw [hd] at h
    exact primarySh_known (d := d) (c := r.continuation) (fun v h1 _ => (hs.defn v h1).trans hd)
      (fun v h1 _ => hs.cont v h1) h

end

theorem call_same (hs : any.Same r) {c : Call} (hc : ∀ line, c ≠ .read line) {w : Flags} :
    c.prog.Ok any good (fun _ out res => (res, out) = aloneCall r c) w [] := by
  cases c with
  | read line => exact absurd rfl (hc line)
  | decode output =>
    refine Sh.Ok.map fun fs h1 _ => ?_
    cases hs.fields fs h1
    refine decodeRowsSh_same hs ?_
    simp only [List.nil_append, aloneCall, Record.decode]
    cases hr : (decodeRows r.info r.fields legTypeDesc).res with
    | error e => simp [Except.map, Sh.Ok]
    | ok rows =>
      simp only [Except.map]
      refine .prints ?_
      cases output <;> simp [Sh.Ok]
  | json output single_line =>
    refine Sh.Ok.map fun fs h1 _ => ?_
    cases hs.fields fs h1
    exact .prints rfl
  | primary =>
    simp only [Call.prog]
    refine primarySh_same hs ?_
    rfl
  | hasCont =>
    simp only [Call.prog, hasContSh]
    refine primarySh_same hs ?_
    simp only [aloneCall, Record.hasCont]
    split
    · rfl
    · intro c h1 _
      cases hs.cont c h1
      rfl

/-! ### records of the same kind -/

/-- the program of `read` where the section and continuation number are known -/
theorem readSh_kind {post : Flags → List Event → Except Exc Bool → Prop} {line k c : Str} {d : Definition} {w : Flags}
    (hv : validate line = true) (hk : resolve line = some k) (hd : registry.lookup k = some d)
    (hraw : good.raw (strip line))
    (hraws : ∀ t, good.raw t → t.length = 132 ∧ ∀ j, d.contIdx = some j → good.cont (col t j))
    (hid : ∀ v, good.ident v ↔ v = k) (hdef : ∀ v, good.defn v ↔ v = some d) (hc : ∀ v, good.cont v → v = c)
    (hno : d.contIdx = none → w.cont)
    (hbad : ∀ W : Flags, W.raw → W.ident → W.defn → W.cont → d.contIdx.isSome = true → isAlnum c = false →
      ∀ t, good.raw t → post W (contDiag (d.name.getD []) c t) (.ok false))
    (hok : ∀ W : Flags, W.raw → W.ident → W.defn → W.cont → ¬ (d.contIdx.isSome = true ∧ isAlnum c = false) →
      match d.read line (c == py!"0" || c == py!"1") with
      | .error e => post W [] (.error e)
      | .ok fs => good.fields fs ∧ (W.fields → ∀ fs', good.fields fs' → post W [] (.ok (!fs'.isEmpty)))) :
    (readSh line).Ok any good post w [] := by
  rw [readSh_some hv hk]
  refine ⟨hraw, (hid k).2 rfl, fun k' _ h1 => ?_⟩
  cases (hid k').1 (h1 trivial)
  dsimp only
  rw [hd]
  refine ⟨(hdef _).2 rfl, ?_⟩
  -- the end of the program
  have hend : ∀ W : Flags, W.raw → W.ident → W.defn → W.cont → ¬ (d.contIdx.isSome = true ∧ isAlnum c = false) →
      (readFieldsSh line).Ok any good post W [] := by
    intro W w1 w2 w3 w4 hn d' _ h2
    cases (hdef d').1 (h2 w3)
    refine primarySh_known (d := d) (c := c) (fun v _ h => (hdef v).1 (h w3)) (fun v _ h => hc v (h w4)) ?_
    have h := hok { W with fields := True } w1 w2 w3 w4 hn
    have h' := hok W w1 w2 w3 w4 hn
    cases hr : d.read line (c == py!"0" || c == py!"1") with
    | error e => rw [hr] at h'; exact h'
    | ok fs =>
      rw [hr] at h
      refine ⟨h.1, fun fs' _ h4 => ?_⟩
      have := h.2 trivial fs' (h4 trivial)
      dsimp only
      split <;> simp_all [Sh.Ok]
  intro d1 _ h2
  cases (hdef d1).1 (h2 trivial)
  cases hci : d.contIdx with
  | none =>
    simp only [Option.bind_some, hci]
    exact hend _ trivial trivial trivial (hno hci) (by simp [hci])
  | some j =>
    simp only [Option.bind_some, hci]
    obtain ⟨hlt, ⟨nm, hnm⟩, happ, htype, ⟨cs, hcs⟩⟩ := (entry_facts hd).withCont j hci
    intro t _ h3
    obtain ⟨hlen, htc⟩ := hraws t (h3 trivial)
    intro d2 _ h4
    cases (hdef d2).1 (h4 trivial)
    simp only [Option.bind_some, hci]
    rw [index_lt (by omega)]
    refine ⟨htc j hci, fun c1 _ h5 => ?_⟩
    have hc1 := hc c1 (h5 trivial)
    subst hc1
    dsimp only
    split
    · next hal =>
      intro d3 _ h6
      cases (hdef d3).1 (h6 trivial)
      simp only [Option.bind_some, hnm]
      intro c2 _ h7
      have hc2 := hc c2 (h7 trivial)
      subst hc2
      intro t' _ h8
      have := hbad { w with raw := True, ident := True, defn := True, cont := True } trivial trivial trivial trivial
        (by simp [hci]) hal t' (h8 trivial)
      simpa [Sh.Ok, contDiag, hnm] using this
    · next hal =>
      have hn : ¬ (d.contIdx.isSome = true ∧ isAlnum c1 = false) := fun h => hal h.2
      have he := hend { w with raw := True, ident := True, defn := True, cont := True } trivial trivial trivial trivial hn
      refine primarySh_known (d := d) (c := c1) (fun v _ h => (hdef v).1 (h trivial))
        (fun v _ h => hc v (h trivial)) ?_
      split
      · intro d3 _ h6
        cases (hdef d3).1 (h6 trivial)
        simp only [Option.bind_some, happ]
        intro d4 _ h7
        cases (hdef d4).1 (h7 trivial)
        simp only [Option.bind_some, htype]
        intro t' _ h8
        obtain ⟨hlen', _⟩ := hraws t' (h8 trivial)
        have : (Slice.at (j + 1)).eval t' = .ok (col t' (j + 1)) := index_lt (by omega)
        simp only [this]
        intro d5 _ h9
        cases (hdef d5).1 (h9 trivial)
        simp only [Option.bind_some, hcs]
        have : truthy (py!"J") = true := rfl
        simp only [this, Bool.not_true, Bool.and_false]
        exact he
      · exact he

/-! ### the same line -/

/-- the attributes that the call leaves as they are -/
def Flags.unchanged (r s : Record) : Flags :=
  ⟨r.ident = s.ident, r.raw = s.raw, r.continuation = s.continuation, r.fields = s.fields, r.definition = s.definition⟩

/-- every attribute was assigned or left as it was -/
structure Flags.Whole (w : Flags) (r s : Record) : Prop where
  ident : w.ident ∨ r.ident = s.ident
  raw : w.raw ∨ r.raw = s.raw
  cont : w.cont ∨ r.continuation = s.continuation
  fields : w.fields ∨ r.fields = s.fields
  defn : w.defn ∨ r.definition = s.definition

omit [PyUnicode] in
theorem unchanged_holds {r s : Record} : (Flags.unchanged r s).Holds (View.just s) r := ⟨id, id, id, id, id⟩

omit [PyUnicode] in
theorem whole_eq {w : Flags} {r s o : Record} (h : w.Whole r s) (hw : w.Holds (View.just s) o)
    (ha : ((View.just s).orInit r).Holds o) : o = s := by
  have h1 : o.ident = s.ident := h.ident.elim hw.ident fun h => ha.ident.elim (·.trans h) id
  have h2 : o.raw = s.raw := h.raw.elim hw.raw fun h => ha.raw.elim (·.trans h) id
  have h3 : o.continuation = s.continuation := h.cont.elim hw.cont fun h => ha.cont.elim (·.trans h) id
  have h4 : o.fields = s.fields := h.fields.elim hw.fields fun h => ha.fields.elim (·.trans h) id
  have h5 : o.definition = s.definition := h.defn.elim hw.defn fun h => ha.defn.elim (·.trans h) id
  cases o
  cases s
  simp only at h1 h2 h3 h4 h5
  rw [h1, h2, h3, h4, h5]

omit [PyUnicode] in
theorem enter_primary' (r : Record) (line k : Str) (d : Definition) : (r.enter line k d).primary =
    ((r.enter line k d).continuation == py!"0" || (r.enter line k d).continuation == py!"1") := rfl

theorem readAs_obj (r : Record) {line k : Str} {d : Definition} :
    (r.readAs line k d).obj.ident = k ∧ (r.readAs line k d).obj.raw = strip line ∧
    (r.readAs line k d).obj.continuation = (r.enter line k d).continuation ∧
    (r.readAs line k d).obj.definition = some d := by
  unfold Record.readAs Record.finish
  dsimp only
  split
  · exact ⟨rfl, rfl, rfl, rfl⟩
  · split <;> exact ⟨rfl, rfl, rfl, rfl⟩

theorem readSh_line {r : Record} {line : Str} :
    (readSh line).Ok any (View.just (r.read line).obj)
      (fun w out res => (Result.bool res, out) = aloneCall r (.read line) ∧ w.Whole r (r.read line).obj)
      (Flags.unchanged r (r.read line).obj) [] := by
  have he := read_eq r line
  simp only [aloneCall]
  by_cases hv : validate line = true
  · have hrec := validate_iff_isRecord.1 hv
    rw [if_pos hv] at he
    cases hk : resolve line with
    | none =>
      rw [hk] at he
      rw [he, readSh_none hv hk]
      exact ⟨rfl, rfl, .inr rfl, .inl trivial, .inr rfl, .inr rfl, .inr rfl⟩
    | some k =>
      rw [hk] at he
      dsimp only at he
      obtain ⟨d, hd⟩ : ∃ d, registry.lookup k = some d := by
        have hsup : k ∈ supported := by cases resolve_iff.1 hk <;> assumption
        exact Option.isSome_iff_exists.1 (inRegistry_iff.2 hsup)
      rw [hd] at he
      dsimp only at he
      obtain ⟨o1, o2, o3, o4⟩ := readAs_obj r (line := line) (k := k) (d := d)
      have hf := entry_facts hd
      have ht := length_line hrec
      rw [he]
      refine readSh_kind (c := (r.enter line k d).continuation) hv hk hd o2.symm ?_ ?_ ?_ ?_ ?_ ?_ ?_
      · intro t h1
        cases h1.trans o2
        refine ⟨hrec.length, fun j hj => ?_⟩
        show _ = _
        rw [o3]
        simp [Record.enter, hj]
      · intro v; show v = _ ↔ _; rw [o1]
      · intro v; show v = _ ↔ _; rw [o4]
      · intro v h1; exact h1.trans o3
      · intro hn
        show r.continuation = _
        rw [o3]
        simp [Record.enter, hn]
      · intro W w1 w2 w3 w4 hs hal t h1
        cases h1.trans o2
        have : r.readAs line k d = ⟨.ok false, r.enter line k d,
            contDiag (d.name.getD []) (r.enter line k d).continuation (strip line)⟩ := by
          unfold Record.readAs
          dsimp only
          rw [if_pos ⟨hs, hal⟩]
          rfl
        rw [this]
        exact ⟨rfl, .inl w2, .inl w1, .inl w4, .inr rfl, .inl w3⟩
      · intro W w1 w2 w3 w4 hn
        have : r.readAs line k d = (r.enter line k d).readFields d line := by
          unfold Record.readAs
          dsimp only
          rw [if_neg hn, readFields_eq hf _ ht]
        rw [this]
        unfold Record.readFields
        rw [enter_primary']
        cases hr : d.read line ((r.enter line k d).continuation == py!"0" ||
            (r.enter line k d).continuation == py!"1") with
        | error e => exact ⟨rfl, .inl w2, .inl w1, .inl w4, .inr rfl, .inl w3⟩
        | ok fs =>
          cases fs with
          | nil =>
            refine ⟨rfl, fun w5 fs' h2 => ?_⟩
            cases h2
            exact ⟨rfl, .inl w2, .inl w1, .inl w4, .inl w5, .inl w3⟩
          | cons f fs =>
            refine ⟨rfl, fun w5 fs' h2 => ?_⟩
            cases h2
            exact ⟨rfl, .inl w2, .inl w1, .inl w4, .inl w5, .inl w3⟩
  · rw [if_neg hv] at he
    rw [he]
    unfold readSh
    rw [if_pos (by simpa using hv)]
    exact ⟨rfl, .inr rfl, .inr rfl, .inr rfl, .inr rfl, .inr rfl⟩

/-! ### the same section and continuation number -/

omit [PyUnicode] in
theorem kind_def {line k : Str} (h : Resolves line k) : ∃ d, registry.lookup k = some d := by
  have hsup : k ∈ supported := by cases h <;> assumption
  exact Option.isSome_iff_exists.1 (inRegistry_iff.2 hsup)

/-- the values that are assigned -/
def kindView (r : Record) (lines : Nat → Str) (k c : Str) (d : Definition) : View where
  ident := (· = k)
  raw t := ∃ i, t = strip (lines i) ∧ IsRecord t
  cont v := v = if d.contIdx.isSome then c else r.continuation
  fields fs := fs ≠ []
  defn := (· = some d)

/-- the continuation number is not assigned for sections without one -/
def Flags.kind (d : Definition) : Flags := ⟨False, False, d.contIdx = Option.none, False, False⟩

theorem kind_holds {r : Record} {lines : Nat → Str} {k c : Str} {d : Definition} :
    (Flags.kind d).Holds (kindView r lines k c d) r := by
  refine ⟨False.elim, False.elim, ?_, False.elim, False.elim⟩
  intro h
  have h : d.contIdx = none := h
  show r.continuation = _
  simp [h]

theorem kind_read {r : Record} {lines : Nat → Str} {k c : Str} {d : Definition}
    (ha : ∀ i, (r.read (lines i)).res = .ok true) (hk : ∀ i, Resolves (lines i) k)
    (hc : ∀ i t j, Padded (lines i) t → IsRecord t → contColumn k = some j → col t j = c)
    (hd : registry.lookup k = some d) {i : Nat} :
    (readSh (lines i)).Ok any (kindView r lines k c d)
      (fun _ out res => Result.bool res = .bool (.ok true) ∧ out = []) (.kind d) [] := by
  have he := read_eq r (lines i)
  have ha := ha i
  have hk := resolve_iff.2 (hk i)
  have hf := entry_facts hd
  by_cases hv : validate (lines i) = true
  · have hrec := validate_iff_isRecord.1 hv
    have ht := length_line hrec
    rw [if_pos hv, hk] at he
    dsimp only at he
    rw [hd] at he
    dsimp only at he
    rw [he] at ha
    have hcont : (r.enter (lines i) k d).continuation = if d.contIdx.isSome then c else r.continuation := by
      cases hj : d.contIdx with
      | none => simp [Record.enter, hj]
      | some j =>
        rw [hf.cont] at hj
        have := hc i _ j (padded_strip _) hrec hj
        rw [← hf.cont] at hj
        simp [Record.enter, hj, this]
    have hn : ¬ (d.contIdx.isSome = true ∧ isAlnum (r.enter (lines i) k d).continuation = false) := by
      intro hb
      unfold Record.readAs at ha
      dsimp only at ha
      rw [if_pos hb] at ha
      cases ha
    have hrd : r.readAs (lines i) k d = (r.enter (lines i) k d).readFields d (lines i) := by
      unfold Record.readAs
      dsimp only
      rw [if_neg hn, readFields_eq hf _ ht]
    refine readSh_kind (c := (r.enter (lines i) k d).continuation) hv hk hd ⟨i, rfl, hrec⟩ ?_ (fun v => Iff.rfl)
      (fun v => Iff.rfl) (fun v h => h.trans hcont.symm) id ?_ ?_
    · rintro t ⟨i', rfl, hrec'⟩
      refine ⟨hrec'.length, fun j hj => ?_⟩
      show _ = _
      rw [hj, Option.isSome_some, if_pos rfl]
      exact hc i' _ j (padded_strip _) hrec' (by rw [← hf.cont, hj])
    · intro W _ _ _ _ h1 h2
      exact absurd ⟨h1, h2⟩ hn
    · intro W _ _ _ _ _
      rw [hrd] at ha
      unfold Record.readFields at ha
      rw [enter_primary'] at ha
      cases hr : d.read (lines i) ((r.enter (lines i) k d).continuation == py!"0" ||
          (r.enter (lines i) k d).continuation == py!"1") with
      | error e => rw [hr] at ha; cases ha
      | ok fs =>
        cases fs with
        | nil => rw [hr] at ha; cases ha
        | cons f fs =>
          refine ⟨List.cons_ne_nil _ _, fun _ fs' h2 => ?_⟩
          cases fs' with
          | nil => exact absurd rfl h2
          | cons _ _ => exact ⟨rfl, rfl⟩
  · rw [if_neg hv] at he
    rw [he] at ha
    cases ha

end Arinc
