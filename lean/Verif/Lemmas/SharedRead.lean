import Verif.Lemmas.Shared
/-!
# Lemmas: what the methods do to a shared `Record`
-/
namespace Arinc
open Py Spec

theorem read_cut {k : Str} {d : Definition} (hd : registry.lookup k = some d) {line : Str} (hl : 132 ≤ line.length)
    {p : Bool} {fs : List Field} (h : d.read line p = .ok fs) : CutFrom line k p fs := by
  rw [defRead_eq (entry_facts hd) hl] at h
  cases hs : (d.branch p).select line with
  | error e => rw [hs] at h; cases h
  | ok l =>
    rw [hs] at h
    cases h
    rw [CutFrom, select_layoutOf hd hs]
    dsimp only
    rw [agree_map (agree_lookup hd p (pick line (appColumns k))) line]
    simp only [usedOf_shown]

theorem registry_appType {k : Str} {d : Definition} (hd : registry.lookup k = some d) :
    d.appType.all Slice.inBounds = true := by
  have h : registry.all (fun p => p.2.appType.all Slice.inBounds) = true := by decide +kernel
  exact List.all_eq_true.1 h _ (lookup_mem hd)

theorem read_error {k : Str} {d : Definition} (hd : registry.lookup k = some d) {line : Str} (hl : 132 ≤ line.length)
    {p : Bool} {e : Exc} (h : d.read line p = .error e) : e = .valueError := by
  rw [defRead_eq (entry_facts hd) hl] at h
  cases hs : (d.branch p).select line with
  | ok l => rw [hs] at h; cases h
  | error e' =>
    rw [hs] at h
    cases h
    unfold Branch.select at hs
    split at hs
    · cases hs
    · split at hs
      · cases hs
      · split at hs <;> cases hs
        rfl

variable {any good : View}

section
variable {α : Type} {post : Flags → List Event → α → Prop}

theorem primarySh_any {k : Bool → Sh α} {w : Flags} {out : List Event} (h : ∀ b, (k b).Ok any good post w out) :
    (primarySh k).Ok any good post w out := by
  intro d _ _
  cases d with
  | none => exact h _
  | some d =>
    intro c _ _
    simp only
    split
    · exact h _
    · intro c _ _; exact h _

theorem primarySh_known {k : Bool → Sh α} {w : Flags} {out : List Event} {d : Definition} {c : Str}
    (hd : ∀ v, any.defn v → (w.defn → good.defn v) → v = some d)
    (hc : ∀ v, any.cont v → (w.cont → good.cont v) → v = c)
    (h : (k (c == py!"0" || c == py!"1")).Ok any good post w out) : (primarySh k).Ok any good post w out := by
  intro d' h1 h2
  cases hd d' h1 h2
  intro c' h1 h2
  have hc' := hc c' h1 h2
  subst hc'
  simp only
  split
  · next h0 => rw [h0] at h; exact h
  · next h0 =>
    intro c'' h1 h2
    have hc'' := hc c'' h1 h2
    subst hc''
    have : (c'' == py!"0") = false := by simpa using h0
    rw [this, Bool.false_or] at h
    exact h

end

variable [PyUnicode]

theorem readSh_some {line k : Str} (hv : validate line = true) (hk : resolve line = some k) :
    readSh line = .setRaw (strip line) (.setIdent k (lookupSh line)) := by
  have ht := length_line (validate_iff_isRecord.1 hv)
  unfold readSh
  rw [if_neg (by simp [hv])]
  have e : (Slice.pair 4 12).eval line = .ok (col line 4 ++ col line 12) := by
    simp only [Slice.eval]
    rw [index_lt (show 4 < line.length by omega), index_lt (show 12 < line.length by omega)]
    rfl
  simp only [e, slice_eq_cols, inRegistry_iff]
  unfold resolve at hk
  split at hk
  · next h1 => cases hk; rw [if_pos h1]
  · next h1 =>
    split at hk
    · next h2 => cases hk; rw [if_neg h1, if_pos h2]
    · cases hk

theorem readSh_none {line : Str} (hv : validate line = true) (hk : resolve line = none) :
    readSh line = .setRaw (strip line) (.done (.ok false)) := by
  have ht := length_line (validate_iff_isRecord.1 hv)
  unfold readSh
  rw [if_neg (by simp [hv])]
  have e : (Slice.pair 4 12).eval line = .ok (col line 4 ++ col line 12) := by
    simp only [Slice.eval]
    rw [index_lt (show 4 < line.length by omega), index_lt (show 12 < line.length by omega)]
    rfl
  simp only [e, slice_eq_cols, inRegistry_iff]
  unfold resolve at hk
  split at hk
  · cases hk
  · next h1 =>
    split at hk
    · cases hk
    · next h2 => rw [if_neg h1, if_neg h2]

/-! ### any calls at all -/

/-- the values the calls can assign -/
def mixView (calls : Nat → Call) : View where
  ident := OneSection calls
  raw := OneText calls
  cont := OneNumber calls
  fields := OneList calls
  defn v := ∃ k d, OneSection calls k ∧ registry.lookup k = some d ∧ v = some d

/-- how `read` can end -/
def ReadEnd (r : Except Exc Bool) : Prop :=
  (∃ b, r = .ok b) ∨ r = .error .valueError ∨ r = .error .attributeError

variable {calls : Nat → Call}

theorem readFieldsSh_mix {i : Nat} {line : Str} (hi : calls i = .read line) (hv : validate line = true) {w : Flags}
    (hw : w.defn) {out : List Event} :
    (readFieldsSh line).Ok any (mixView calls) (fun _ _ r => ReadEnd r) w out := by
  intro d _ h2
  obtain ⟨k, d, hk, hd, rfl⟩ := h2 hw
  refine primarySh_any fun b => ?_
  have hl := length_line (validate_iff_isRecord.1 hv)
  cases hr : d.read line b with
  | error e => exact .inr (.inl (by rw [read_error hd hl hr]))
  | ok fs =>
    refine ⟨⟨i, line, k, b, hi, validate_iff.1 hv, hk, read_cut hd hl hr⟩, fun fs' _ _ => ?_⟩
    simp only
    split <;> exact .inl ⟨_, rfl⟩

theorem checkApplicationSh_mix {i : Nat} {line : Str} (hi : calls i = .read line) (hv : validate line = true)
    {w : Flags} (hw : w.defn) (hr : w.raw) {out : List Event} :
    (checkApplicationSh line).Ok any (mixView calls) (fun _ _ r => ReadEnd r) w out := by
  refine primarySh_any fun b => ?_
  cases b with
  | true => exact readFieldsSh_mix hi hv hw
  | false =>
    simp only [if_true]
    intro d1 _ h2
    dsimp only
    split
    · exact .inr (.inl rfl)
    · intro d2 _ h2
      obtain ⟨k, d, hk, hd, rfl⟩ := h2 hw
      dsimp only
      split
      · exact .inr (.inr rfl)
      · next sl hsl =>
        intro raw _ h4
        obtain ⟨_, _, _, _, hrec⟩ := h4 hr
        have hs : ∃ a, sl.eval raw = .ok a := by
          cases hc : d.contIdx with
          | some j =>
            obtain ⟨hlt, _, _, htype, _⟩ := (entry_facts hd).withCont j hc
            rw [Option.bind_some, htype] at hsl
            cases hsl
            exact ⟨_, index_lt (by rw [hrec.length]; omega)⟩
          | none =>
            have := registry_appType hd
            rw [Option.bind_some] at hsl
            rw [hsl] at this
            exact ⟨_, eval_ok (by simpa using this) (by rw [hrec.length]; omega)⟩
        obtain ⟨a, ha⟩ := hs
        dsimp only
        rw [ha]
        intro d3 _ h6
        dsimp only
        split
        · exact .inr (.inr rfl)
        · have : truthy (py!"J") = true := rfl
          simp only [this, Bool.not_true, Bool.and_false]
          exact readFieldsSh_mix hi hv hw

theorem checkContSh_mix {i : Nat} {line : Str} (hi : calls i = .read line) (hv : validate line = true) {w : Flags}
    (hw : w.defn) (hr : w.raw) {out : List Event} :
    (checkContSh line).Ok any (mixView calls) (fun _ _ r => ReadEnd r) w out := by
  intro d1 _ _
  dsimp only
  split
  · exact readFieldsSh_mix hi hv hw
  · intro raw _ h1
    have ht := h1 hr
    intro d2 _ h2
    obtain ⟨k, d, hk, hd, rfl⟩ := h2 hw
    dsimp only
    split
    · exact .inr (.inr rfl)
    · next j hj =>
      obtain ⟨hlt, _⟩ := (entry_facts hd).withCont j hj
      have hlen : raw.length = 132 := by obtain ⟨_, _, _, _, hrec⟩ := ht; exact hrec.length
      rw [index_lt (by omega)]
      refine ⟨⟨raw, j, ht, by omega, rfl⟩, fun c _ _ => ?_⟩
      dsimp only
      split
      · intro d3 _ _
        dsimp only
        split
        · exact .inr (.inr rfl)
        · intro c _ _
          intro raw _ _
          exact .inl ⟨_, rfl⟩
      · exact checkApplicationSh_mix hi hv (w := { w with cont := True }) hw hr

theorem readSh_mix {i : Nat} {line : Str} (hi : calls i = .read line) {w : Flags} {out : List Event} :
    (readSh line).Ok any (mixView calls) (fun _ _ r => ReadEnd r) w out := by
  by_cases hv : validate line = true
  · have hrec := validate_iff_isRecord.1 hv
    have hraw : OneText calls (strip line) := ⟨i, line, hi, padded_strip line, hrec⟩
    cases hk : resolve line with
    | none => rw [readSh_none hv hk]; exact ⟨hraw, .inl ⟨_, rfl⟩⟩
    | some k =>
      rw [readSh_some hv hk]
      refine ⟨hraw, ⟨i, line, hi, validate_iff.1 hv, resolve_iff.1 hk⟩, fun k' _ h1 => ?_⟩
      have hk' := h1 trivial
      obtain ⟨_, _, _, _, hres⟩ := id hk'
      have hsup : k' ∈ supported := by cases hres <;> assumption
      obtain ⟨d, hd⟩ := Option.isSome_iff_exists.1 (inRegistry_iff.2 hsup)
      dsimp only
      rw [hd]
      exact ⟨⟨k', d, hk', hd, rfl⟩, checkContSh_mix hi hv trivial trivial⟩
  · unfold readSh
    rw [if_pos (by simpa using hv)]
    exact .inl ⟨_, rfl⟩

/-! ### `decode` and `json` -/

/-- the result of decoding a field, for some section that the object had -/
def FieldEnd (idents : Str → Prop) (f : Field) (r : Except Exc PyVal) : Prop :=
  ∃ ident, (idents ident ∨ ident = []) ∧ r = (runDec f.dec f.value ⟨ident, []⟩ legTypeDesc).res

omit [PyUnicode] in
theorem routeTypesSh_any {α : Type} {post : Flags → List Event → α → Prop} {k : List (Str × Str) → Sh α} {w : Flags}
    {out : List Event} (h : ∀ ident, (any.ident ident ∨ ident = []) → (k (routeTypes ident)).Ok any good post w out) :
    (routeTypesSh k).Ok any good post w out := by
  intro i h1 _; dsimp only; split
  · next hi => subst hi; exact h _ (.inl h1)
  intro i h1 _; dsimp only; split
  · next hi => subst hi; exact h _ (.inl h1)
  intro i h1 _; dsimp only; split
  · next hi => subst hi; exact h _ (.inl h1)
  intro i h1 _; dsimp only; split
  · next hi => subst hi; exact h _ (.inl h1)
  intro i h1 _; dsimp only; split
  · next hi => subst hi; exact h _ (.inl h1)
  intro i h1 _; dsimp only; split
  · next hi => subst hi; exact h _ (.inl h1)
  intro i h1 _; dsimp only; split
  · next hi => subst hi; exact h _ (.inl h1)
  intro i h1 _; dsimp only; split
  · next hi => subst hi; exact h _ (.inl h1)
  exact h [] (.inr rfl)

theorem runDec_rec (fn : DecFn) (v : Str) (rec rec' : RecInfo) (legs : Legs) (h7 : fn ≠ .f007) (h34 : fn ≠ .f034) :
    runDec fn v rec legs = runDec fn v rec' legs := by
  cases fn <;> first | rfl | exact absurd rfl h7 | exact absurd rfl h34

theorem field_034_fst (v i r i' r' : Str) : (field_034 v i r).1 = (field_034 v i' r').1 := by
  unfold field_034
  dsimp only
  split
  · split <;> rfl
  · rfl

theorem decodeFieldSh_any {α : Type} {post : Flags → List Event → α → Prop} {f : Field} {k : Except Exc PyVal → Sh α}
    {w : Flags} {out : List Event}
    (h : ∀ r out, FieldEnd any.ident f r → (k r).Ok any good post w out) :
    (decodeFieldSh f k).Ok any good post w out := by
  unfold decodeFieldSh
  split
  · next hf => exact routeTypesSh_any fun ident hi => h _ _ ⟨ident, hi, by rw [hf]; rfl⟩
  · next hf =>
    dsimp only
    split
    · next hbad =>
      intro ident h1 _
      intro raw _ _
      refine h _ _ ⟨ident, .inl h1, ?_⟩
      rw [hf]
      simp only [runDec, noisy, field_034]
      rw [if_pos hbad.1, if_pos hbad.2]
    · exact h _ _ ⟨[], .inr rfl, by rw [hf]; rfl⟩
  · exact .prints (h _ _ ⟨[], .inr rfl, rfl⟩)

theorem rowsOf_append {idents : Str → Prop} {fs gs : List Field} {rows rows' : List Row} (h : SharedRows idents fs rows)
    (h' : SharedRows idents gs rows') : SharedRows idents (fs ++ gs) (rows ++ rows') := by
  induction h with
  | nil => exact h'
  | cons hi h _ ih => exact .cons hi h ih

theorem decodeRowsSh_any {α : Type} {post : Flags → List Event → α → Prop} {k : Except Exc (List Row) → Sh α}
    {w : Flags} {fs gs : List Field} {rows : List Row} {out : List Event} (hr : SharedRows any.ident fs rows)
    (hok : ∀ rows out, SharedRows any.ident (fs ++ gs) rows → (k (.ok rows)).Ok any good post w out)
    (herr : ∀ e out, (∃ f ∈ gs, FieldEnd any.ident f (.error e)) → (k (.error e)).Ok any good post w out) :
    (decodeRowsSh k gs rows).Ok any good post w out := by
  induction gs generalizing fs rows out with
  | nil => exact hok _ _ (by simpa using hr)
  | cons g gs ih =>
    refine decodeFieldSh_any fun r out hg => ?_
    cases r with
    | error e => exact herr _ _ ⟨g, by simp, hg⟩
    | ok v =>
      obtain ⟨ident, hi, hg⟩ := hg
      refine ih (rowsOf_append hr (.cons hi hg.symm .nil)) (fun rows out h => hok rows out (by simpa using h)) ?_
      rintro e out ⟨f, hf, he⟩
      exact herr e out ⟨f, by simp [hf], he⟩

/-- how a call can end -/
def MixEnd (obj : Record) (calls : Nat → Call) (c : Call) (out : List Event) (r : Result) : Prop :=
  match c with
  | .read _ => (∃ b, r = .bool (.ok b)) ∨ r = .bool (.error .valueError) ∨ r = .bool (.error .attributeError)
  | .decode _ => ∃ fs, (fs = obj.fields ∨ OneList calls fs) ∧
    ((∃ rows, r = .rows (.ok rows) ∧ SharedRows (fun k => k = obj.ident ∨ OneSection calls k) fs rows) ∨
     (∃ e, r = .rows (.error e) ∧ ∃ f ∈ fs, ∃ k, ((k = obj.ident ∨ OneSection calls k) ∨ k = []) ∧
        (runDec f.dec f.value ⟨k, []⟩ legTypeDesc).res = .error e))
  | .json output single_line => ∃ fs, (fs = obj.fields ∨ OneList calls fs) ∧
    (r, out) = aloneCall { obj with fields := fs } (.json output single_line)
  | .primary => ∃ b, r = .bool (.ok b)
  | .hasCont => ∃ b, r = .bool (.ok b)

theorem call_mix {obj : Record} {c : Call} {i : Nat} (hi : calls i = c) {w : Flags} :
    c.prog.Ok ((mixView calls).orInit obj) (mixView calls) (fun _ out r => MixEnd obj calls c out r) w [] := by
  cases c with
  | read line =>
    refine Sh.Ok.map (ok_mono ?_ (readSh_mix hi))
    rintro w out r (⟨b, rfl⟩ | rfl | rfl)
    · exact .inl ⟨b, rfl⟩
    · exact .inr (.inl rfl)
    · exact .inr (.inr rfl)
  | decode output =>
    refine Sh.Ok.map fun fs h1 _ => ?_
    refine decodeRowsSh_any (fs := []) .nil ?_ ?_
    · intro rows out h
      refine .prints ?_
      exact ⟨fs, h1, .inl ⟨rows, rfl, h⟩⟩
    · rintro e out ⟨f, hf, k, hk, he⟩
      exact ⟨fs, h1, .inr ⟨e, rfl, f, hf, k, hk, he.symm⟩⟩
  | json output single_line =>
    refine Sh.Ok.map fun fs h1 _ => ?_
    exact .prints ⟨fs, h1, rfl⟩
  | primary =>
    simp only [Call.prog]
    refine primarySh_any fun b => ?_
    exact ⟨b, rfl⟩
  | hasCont =>
    simp only [Call.prog, hasContSh]
    refine primarySh_any fun b => ?_
    split
    · exact ⟨_, rfl⟩
    · intro c _ _; exact ⟨_, rfl⟩

end Arinc
