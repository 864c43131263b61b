import Verif.Props.Codes
/-!
# C71: a description tells which code it stands for

The documented codes, and the pairs of codes with the same description, are listed in `Spec/Codes.lean`.
-/
namespace Arinc
open Py Spec

section
variable [PyUnicode]

/-! ## C71 -/

/-- what the tables have to satisfy: descriptions of one table are distinct, up to `synonyms`, and
    no description looks like what an undocumented value shows -/
def distinctOK (t : CodeField) : Bool :=
  t.codes.all fun p =>
    (t.codes.all fun q => p.2 != q.2 || p.1 == q.1 || synonyms.contains (t.fn, p.1, q.1)) &&
    (match t.otherwise with
      | .text s => p.2 != s
      | .prefixed s => !(s.isPrefixOf p.2)
      | .same => p.2.length != p.1.length
      | .unsupported => !((py!"Unsupported Value: \"").isPrefixOf p.2)
      | .raises => true) &&
    (!t.blank || p.2.any (fun c => 33 ≤ c && c ≤ 126))

omit [PyUnicode] in
theorem distinct_ok : codeFields.all distinctOK = true := by decide +kernel

omit [PyUnicode] in
theorem ret_str {a b : Str} (h : (ret a : Except Exc PyVal) = ret b) : a = b := by
  injection h with h; injection h

omit [PyUnicode] in
theorem not_isPrefix_append {a b : Str} (h : (!(a.isPrefixOf (a ++ b))) = true) : False := by
  have : a.isPrefixOf (a ++ b) = true := List.isPrefixOf_iff_prefix.2 (List.prefix_append a b)
  rw [this] at h; cases h

/-- C71: of the values a field can have (all of the same width), a documented one is told from
    every other by what is shown, except for the pairs listed in `synonyms`. -/
theorem C71_told_apart {t : CodeField} (ht : t ∈ codeFields) {v w d : Str} (hv : ∃ d, (v, d) ∈ t.codes)
    (hw : w.length = v.length) (sv : Shows t.fn v d) (sw : Shows t.fn w d) :
    v = w ∨ (t.fn, v, w) ∈ synonyms := by
  obtain ⟨d', hp⟩ := hv
  have e := (sv ⟨[], []⟩ []).symm.trans (C49_documented ht hp ⟨[], []⟩ [])
  injection e with e1
  obtain rfl : d = d' := ret_str e1
  have hok := List.all_eq_true.1 (List.all_eq_true.1 distinct_ok t ht) _ hp
  simp only [Bool.and_eq_true] at hok
  obtain ⟨⟨hq, ho⟩, hb⟩ := hok
  have hc : codeRes t w = ret d := by
    have := (computes_all t ht w ⟨[], []⟩ []).symm.trans (sw ⟨[], []⟩ [])
    injection this
  unfold codeRes at hc
  split at hc
  · next hbl =>
    have := ret_str hc
    subst this
    rw [hbl.1] at hb
    simp only [Bool.not_true, Bool.false_or, List.any_eq_true, Bool.and_eq_true, decide_eq_true_eq] at hb
    obtain ⟨c, hc, h1, h2⟩ := hb
    have := strip_nil_iff.1 hbl.2 c hc
    simp [isSpace] at this
    omega
  · split at hc
    · next x hl =>
      obtain rfl := ret_str hc
      have := List.all_eq_true.1 hq _ (lookup_mem hl)
      simp only [bne_self_eq_false, Bool.false_or, Bool.or_eq_true, beq_iff_eq, List.contains_eq_mem,
        decide_eq_true_eq] at this
      exact this
    · exfalso
      revert ho hc
      cases t.otherwise with
      | text s => intro ho hc; simp [ret_str hc] at ho
      | prefixed s => intro ho hc; rw [← ret_str hc] at ho; exact not_isPrefix_append ho
      | same => intro ho hc; rw [← ret_str hc] at ho; simp [hw] at ho
      | unsupported =>
        intro ho hc
        rw [← ret_str hc, List.append_assoc] at ho
        exact not_isPrefix_append ho
      | raises => intro _ hc; cases hc

/-- C71: the listed pairs are told apart by nothing: they do show the same. -/
theorem C71_synonyms {fn : DecFn} {v w : Str} (h : (fn, v, w) ∈ synonyms) :
    v ≠ w ∧ v.length = (if fn = .f020 then 1 else 3) ∧ w.length = v.length ∧
      ∃ d, Shows fn v d ∧ Shows fn w d := by
  have key : synonyms.all (fun x => x.2.1 != x.2.2 && x.2.1.length == (if x.1 = .f020 then 1 else 3) &&
      x.2.2.length == x.2.1.length &&
      codeFields.any fun t => t.fn = x.1 && t.codes.any fun p => p.1 == x.2.1 && t.codes.any fun q =>
        q.1 == x.2.2 && q.2 == p.2) = true := by decide +kernel
  have key := List.all_eq_true.1 key _ h
  simp only [Bool.and_eq_true, bne_iff_ne, beq_iff_eq, List.any_eq_true, decide_eq_true_eq] at key
  obtain ⟨⟨⟨h1, h2⟩, h3⟩, t, ht, rfl, p, hp, rfl, q, hq, rfl, hd⟩ := key
  refine ⟨h1, h2, h3, p.2, C49_documented ht hp, ?_⟩
  rw [← hd]; exact C49_documented ht hq

/-- C71: route types of one section are told apart in the same way. -/
theorem C71_route_type (rec : RecInfo) (legs : Legs) {v w : Str} (hv : ∃ d, (v, d) ∈ routeTypesOf rec.ident)
    (h : (runDec .f007 v rec legs).res = (runDec .f007 w rec legs).res) : v = w := by
  obtain ⟨d, hd⟩ := hv
  have hdis : ∀ p ∈ routeTypesOf rec.ident, ∀ q ∈ routeTypesOf rec.ident, p.2 = q.2 → p.1 = q.1 := by
    have : (routeTypesOf rec.ident).all (fun p => (routeTypesOf rec.ident).all fun q =>
        p.2 != q.2 || p.1 == q.1) = true := by
      unfold routeTypesOf
      repeat' split
      all_goals decide +kernel
    intro p hp q hq e
    have := List.all_eq_true.1 (List.all_eq_true.1 this p hp) q hq
    simpa [e] using this
  have hunk : ∀ p ∈ routeTypesOf rec.ident, p.2 ≠ py!"<UNKNOWN>" := by
    have : (routeTypesOf rec.ident).all (fun p => p.2 != py!"<UNKNOWN>") = true := by
      unfold routeTypesOf
      repeat' split
      all_goals decide +kernel
    intro p hp
    simpa using List.all_eq_true.1 this p hp
  rw [(C49_route_type v rec legs).1 d hd] at h
  by_cases hw : ∃ d', (w, d') ∈ routeTypesOf rec.ident
  · obtain ⟨d', hd'⟩ := hw
    rw [(C49_route_type w rec legs).1 d' hd'] at h
    exact hdis _ hd _ hd' (ret_str h)
  · rw [(C49_route_type w rec legs).2 (fun d' hd' => hw ⟨d', hd'⟩)] at h
    exact absurd (ret_str h) (hunk _ hd)

end

/-! ## Non-vacuity -/
section
attribute [local instance] Py.Tables.cpython311

example {w : Str} (hw : w.length = 3) (h : Shows .f003 w (py!"Europe")) : py!"EUR" = w := by
  have hm : (⟨.f003, areaCodes, false, .text (py!"<UNKNOWN>")⟩ : CodeField) ∈ codeFields := by simp [codeFields]
  have hd : (py!"EUR", py!"Europe") ∈ areaCodes := by decide +kernel
  rcases C71_told_apart hm ⟨_, hd⟩ hw (C49_documented hm hd) h with h | h
  · exact h
  · simp [synonyms] at h
example : (DecFn.f101, py!"TCA", py!"TMA") ∈ synonyms := by decide +kernel
example : ∃ d, (py!"1", d) ∈ routeTypesOf (py!"PD") := ⟨py!"SID Runway Transition", by decide +kernel⟩

end
end Arinc
