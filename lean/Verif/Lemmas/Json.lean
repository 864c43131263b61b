import Verif.Spec.Json
import Verif.Model.Json
import Verif.Lemmas.Parse
/-! Helper lemmas: JSON writing and reading. -/
namespace Arinc
open Py Spec

theorem hexVal_hexDigit {n : Nat} (h : n < 16) : hexVal (hexDigit n) = some n := by
  unfold hexVal hexDigit
  split
  · rw [if_pos (by omega)]; simp
  · rw [if_neg (by omega), if_neg (by omega), if_pos (by omega)]
    congr 1; omega

theorem stringUnits_uEscape {n : Nat} (h : n < 0x10000) {s rest : Str} {us : List Nat}
    (hs : stringUnits s = some (us, rest)) : stringUnits (uEscape n ++ s) = some (n :: us, rest) := by
  unfold uEscape
  simp only [List.cons_append, List.nil_append]
  rw [stringUnits]
  rw [hexVal_hexDigit (Nat.mod_lt _ (by omega)), hexVal_hexDigit (Nat.mod_lt _ (by omega)),
    hexVal_hexDigit (Nat.mod_lt _ (by omega)), hexVal_hexDigit (Nat.mod_lt _ (by omega)), hs]
  simp only [Option.some.injEq, Prod.mk.injEq, List.cons.injEq, and_true]
  omega

theorem stringUnits_simple {e u : Nat} (h : simpleEscape e = some u) {s rest : Str} {us : List Nat}
    (hs : stringUnits s = some (us, rest)) : stringUnits (92 :: e :: s) = some (u :: us, rest) := by
  rw [stringUnits]
  · rw [h, hs]
  · intro a b c d r h1 h2
    subst h1
    simp [simpleEscape] at h

theorem stringUnits_raw {c : Nat} (h1 : 32 ≤ c) (h2 : c ≠ 34) (h3 : c ≠ 92) {s rest : Str} {us : List Nat}
    (hs : stringUnits s = some (us, rest)) : stringUnits (c :: s) = some (utf16 c ++ us, rest) := by
  rw [stringUnits]
  · rw [if_neg (by omega), hs]
  · exact h2
  · intro a b c d r h; exact absurd h h3
  · intro e r h; exact absurd h h3

theorem stringUnits_jsonChar {c : Nat} (hc : c < 0x110000) {s rest : Str} {us : List Nat}
    (hs : stringUnits s = some (us, rest)) :
    stringUnits (jsonChar c ++ s) = some (utf16 c ++ us, rest) := by
  unfold jsonChar
  split
  · next h => subst h; exact stringUnits_simple (u := 34) rfl hs
  · next h34 =>
    split
    · next h => subst h; exact stringUnits_simple (u := 92) rfl hs
    · next h92 =>
      split
      · next h => subst h; exact stringUnits_simple (u := 10) rfl hs
      · split
        · next h => subst h; exact stringUnits_simple (u := 13) rfl hs
        · split
          · next h => subst h; exact stringUnits_simple (u := 9) rfl hs
          · split
            · next h => subst h; exact stringUnits_simple (u := 12) rfl hs
            · split
              · next h => subst h; exact stringUnits_simple (u := 8) rfl hs
              · split
                · next h => exact stringUnits_raw h.1 h34 h92 hs
                · split
                  · next h =>
                    rw [stringUnits_uEscape h hs]
                    unfold utf16; rw [if_pos h]; rfl
                  · next h =>
                    simp only [List.append_assoc]
                    rw [stringUnits_uEscape (n := 0xd800 + (c - 0x10000) / 0x400 % 0x400) (by omega)
                      (stringUnits_uEscape (n := 0xdc00 + (c - 0x10000) % 0x400) (by omega) hs)]
                    unfold utf16; rw [if_neg h]
                    have : (c - 0x10000) / 0x400 % 0x400 = (c - 0x10000) / 0x400 :=
                      Nat.mod_eq_of_lt (by omega)
                    rw [this]; rfl

theorem stringUnits_flatMap {v : Str} (hv : ∀ c ∈ v, c < 0x110000) (rest : Str) :
    stringUnits (v.flatMap jsonChar ++ (34 :: rest)) = some (v.flatMap utf16, rest) := by
  induction v with
  | nil => rfl
  | cons c v ih =>
    rw [List.flatMap_cons, List.append_assoc]
    exact stringUnits_jsonChar (hv c (by simp)) (ih (fun d hd => hv d (by simp [hd])))

theorem utf16_head {c : Nat} : ∃ u us, utf16 c = u :: us ∧
    (c < 0x10000 → u = c ∧ us = []) := by
  unfold utf16
  split
  · exact ⟨_, _, rfl, fun _ => ⟨rfl, rfl⟩⟩
  · next h => exact ⟨_, _, rfl, fun h' => absurd h' h⟩

theorem fromUtf16_utf16 {v : Str} (h : PlainText v) : fromUtf16 (v.flatMap utf16) = v := by
  obtain ⟨hv, hp⟩ := h
  induction v with
  | nil => rfl
  | cons c v ih =>
    have ih := ih (fun d hd => hv d (by simp [hd])) (by
      cases v with
      | nil => trivial
      | cons d v => exact hp.2)
    rw [List.flatMap_cons]
    by_cases hc : c < 0x10000
    · have e : utf16 c = [c] := by unfold utf16; rw [if_pos hc]
      rw [e, List.singleton_append]
      cases v with
      | nil => rfl
      | cons d v =>
        rw [List.flatMap_cons] at ih ⊢
        obtain ⟨u, us, hu, hd⟩ := utf16_head (c := d)
        rw [hu, List.cons_append] at ih ⊢
        rw [fromUtf16]
        have hn : (highSurrogate c && lowSurrogate u) = false := by
          by_cases hd' : d < 0x10000
          · rw [(hd hd').1]; exact hp.1
          · have : u = 0xD800 + (d - 0x10000) / 0x400 := by
              unfold utf16 at hu; rw [if_neg hd'] at hu
              simp only [List.cons.injEq] at hu; exact hu.1.symm
            have hd2 := hv d (by simp)
            have : lowSurrogate u = false := by
              simp only [lowSurrogate, Bool.and_eq_false_iff, decide_eq_false_iff_not]; omega
            rw [this, Bool.and_false]
        rw [hn]
        simp only [Bool.false_eq_true, ↓reduceIte, List.cons.injEq, true_and]
        exact ih
    · have e : utf16 c = [0xD800 + (c - 0x10000) / 0x400, 0xDC00 + (c - 0x10000) % 0x400] := by
        unfold utf16; rw [if_neg hc]
      have hc2 := hv c (by simp)
      rw [e, List.cons_append, List.cons_append, List.nil_append, fromUtf16]
      have hn : (highSurrogate (0xD800 + (c - 0x10000) / 0x400) &&
          lowSurrogate (0xDC00 + (c - 0x10000) % 0x400)) = true := by
        simp only [highSurrogate, lowSurrogate, Bool.and_eq_true, decide_eq_true_eq]
        omega
      have ev : 0x10000 + (0xD800 + (c - 0x10000) / 0x400 - 0xD800) * 0x400 +
          (0xDC00 + (c - 0x10000) % 0x400 - 0xDC00) = c := by omega
      rw [if_pos hn, ih, ev]

theorem skipWs_ws {ws s : Str} (h : ws.all jsonWs = true) : skipWs (ws ++ s) = skipWs s := by
  induction ws with
  | nil => rfl
  | cons c ws ih =>
    simp only [List.all_cons, Bool.and_eq_true] at h
    unfold skipWs at ih ⊢
    rw [List.cons_append, List.dropWhile_cons_of_pos h.1]
    exact ih h.2

theorem skipWs_tok {c : Nat} (h : jsonWs c = false) (s : Str) : skipWs (c :: s) = c :: s := by
  unfold skipWs
  exact List.dropWhile_cons_of_neg (by simp [h])

/-- reading a literal that was written, after white space -/
theorem jsonString_jsonStr {v : Str} (h : PlainText v) {ws : Str} (hw : ws.all jsonWs = true) (rest : Str) :
    jsonString (ws ++ (jsonStr v ++ rest)) = some (v, rest) := by
  have e : jsonStr v ++ rest = 34 :: (v.flatMap jsonChar ++ (34 :: rest)) := by
    simp [jsonStr]
  unfold jsonString
  rw [skipWs_ws hw, e, skipWs_tok rfl]
  simp only
  rw [stringUnits_flatMap h.1]
  simp only
  rw [fromUtf16_utf16 h]

theorem jsonMember_write {k v : Str} (hk : PlainText k) (hv : PlainText v) {ws : Str}
    (hw : ws.all jsonWs = true) (rest : Str) :
    jsonMember (ws ++ (jsonStr k ++ py!": " ++ jsonStr v ++ rest)) = some ((k, v), rest) := by
  have e : ws ++ (jsonStr k ++ py!": " ++ jsonStr v ++ rest) =
      ws ++ (jsonStr k ++ (58 :: ([32] ++ (jsonStr v ++ rest)))) := by simp
  unfold jsonMember
  rw [e, jsonString_jsonStr hk hw]
  simp only
  rw [skipWs_tok rfl]
  simp only
  rw [jsonString_jsonStr hv rfl]

theorem jsonTail_members {sepWs ws : Str} (hsep : sepWs.all jsonWs = true) (hw : ws.all jsonWs = true)
    {endWs : Str} (he : endWs.all jsonWs = true)
    (d : List (Str × Str)) (hne : d ≠ []) (hd : ∀ p ∈ d, PlainText p.1 ∧ PlainText p.2) (fuel : Nat)
    (hf : d.length ≤ fuel) :
    jsonTail fuel (ws ++ (jsonMembers (44 :: sepWs) (py!": ") d ++ (endWs ++ [125]))) = some d := by
  induction d generalizing fuel ws with
  | nil => exact absurd rfl hne
  | cons p d ih =>
    obtain ⟨k, v⟩ := p
    obtain ⟨hk, hv⟩ := hd (k, v) (by simp)
    cases fuel with
    | zero => simp at hf
    | succ fuel =>
      rw [jsonTail]
      cases d with
      | nil =>
        rw [jsonMembers, jsonMember_write hk hv hw]
        simp only
        rw [skipWs_ws he, skipWs_tok rfl]
        rfl
      | cons q d =>
        have e : jsonMembers (44 :: sepWs) (py!": ") ((k, v) :: q :: d) ++ (endWs ++ [125]) =
            jsonStr k ++ py!": " ++ jsonStr v ++ (44 :: (sepWs ++
              (jsonMembers (44 :: sepWs) (py!": ") (q :: d) ++ (endWs ++ [125])))) := by
          rw [jsonMembers]
          · simp
          · simp
        rw [e, jsonMember_write hk hv hw]
        simp only
        rw [skipWs_tok rfl]
        simp only
        rw [ih hsep (by simp) (fun p hp => hd p (by simp [hp])) fuel (by simpa using hf)]
        rfl

theorem jsonStr_length (v : Str) : 2 ≤ (jsonStr v).length := by
  unfold jsonStr; simp

theorem jsonMembers_length (sep kv : Str) (d : List (Str × Str)) :
    d.length ≤ (jsonMembers sep kv d).length := by
  induction d with
  | nil => simp
  | cons p d ih =>
    obtain ⟨k, v⟩ := p
    have := jsonStr_length k
    cases d with
    | nil => rw [jsonMembers]; simp; omega
    | cons q d =>
      rw [jsonMembers]
      · simp only [List.length_cons, List.length_append] at ih ⊢; omega
      · simp

theorem jsonMembers_head {sep kv : Str} {d : List (Str × Str)} (h : d ≠ []) :
    ∃ t, jsonMembers sep kv d = 34 :: t := by
  cases d with
  | nil => exact absurd rfl h
  | cons p d =>
    obtain ⟨k, v⟩ := p
    cases d with
    | nil => rw [jsonMembers]; exact ⟨_, by simp [jsonStr]; rfl⟩
    | cons q d =>
      rw [jsonMembers]
      · exact ⟨_, by simp [jsonStr]; rfl⟩
      · simp

theorem jsonObject_dumps {d : List (Str × Str)} (hd : ∀ p ∈ d, PlainText p.1 ∧ PlainText p.2) :
    jsonObject (dumps d) = some d := by
  by_cases h0 : d = []
  · subst h0; rfl
  · have e : dumps d = 123 :: ([] ++ (jsonMembers (44 :: [32]) (py!": ") d ++ ([] ++ [125]))) := by
      simp [dumps]
    unfold jsonObject
    rw [e, skipWs_tok rfl]
    simp only
    obtain ⟨t, ht⟩ := jsonMembers_head (sep := 44 :: [32]) (kv := py!": ") h0
    have hl := jsonMembers_length (44 :: [32]) (py!": ") d
    have key := jsonTail_members (sepWs := [32]) (ws := []) (endWs := []) rfl rfl rfl d h0 hd
      (([123] ++ ([] ++ (jsonMembers (44 :: [32]) (py!": ") d ++ ([] ++ [125])))).length)
      (by simp only [List.length_append, List.length_cons, List.length_nil]; omega)
    have hs : skipWs ([] ++ (jsonMembers (44 :: [32]) (py!": ") d ++ ([] ++ [125]))) =
        34 :: (t ++ [125]) := by
      rw [ht]; exact skipWs_tok rfl _
    rw [hs]
    simp only
    exact key

theorem jsonObject_dumpsPretty {d : List (Str × Str)}
    (hd : ∀ p ∈ sortItems d, PlainText p.1 ∧ PlainText p.2) :
    jsonObject (dumpsPretty d) = some (sortItems d) := by
  unfold dumpsPretty
  generalize sortItems d = d at hd
  cases d with
  | nil => rfl
  | cons p d' =>
    simp only
    generalize hdd : p :: d' = d at hd
    have h0 : d ≠ [] := by rw [← hdd]; simp
    have e : [123] ++ indent4 ++ jsonMembers (py!"," ++ indent4) (py!": ") d ++ [10] ++ [125] =
        123 :: (indent4 ++ (jsonMembers (44 :: indent4) (py!": ") d ++ ([10] ++ [125]))) := by
      simp
    unfold jsonObject
    rw [e, skipWs_tok rfl]
    simp only
    obtain ⟨t, ht⟩ := jsonMembers_head (sep := 44 :: indent4) (kv := py!": ") h0
    have hl := jsonMembers_length (44 :: indent4) (py!": ") d
    have key := jsonTail_members (sepWs := indent4) (ws := indent4) (endWs := [10]) rfl rfl rfl d h0 hd
      (([123] ++ (indent4 ++ (jsonMembers (44 :: indent4) (py!": ") d ++ ([10] ++ [125])))).length)
      (by simp only [List.length_append, List.length_cons, List.length_nil]; omega)
    have hs : skipWs (indent4 ++ (jsonMembers (44 :: indent4) (py!": ") d ++ ([10] ++ [125]))) =
        34 :: (t ++ ([10] ++ [125])) := by
      rw [skipWs_ws rfl, ht]; exact skipWs_tok rfl _
    rw [hs]
    simp only
    exact key

/-! ### the dict -/

theorem dictUpdate_keys (d : List (Str × Str)) (k v : Str) :
    (dictUpdate d k v).map Prod.fst =
      if k ∈ d.map Prod.fst then d.map Prod.fst else d.map Prod.fst ++ [k] := by
  induction d with
  | nil => rfl
  | cons p d ih =>
    obtain ⟨k', v'⟩ := p
    unfold dictUpdate
    by_cases h : k' = k
    · subst h; simp
    · rw [if_neg h, List.map_cons, ih]
      have : k ≠ k' := fun e => h e.symm
      by_cases h2 : k ∈ d.map Prod.fst
      · rw [if_pos h2, if_pos (by simp only [List.map_cons, List.mem_cons]; exact .inr h2)]; rfl
      · have h3 : k ∉ ((k', v') :: d).map Prod.fst := by
          intro g
          rcases List.mem_cons.1 g with g | g
          · exact this g
          · exact h2 g
        rw [if_neg h2, if_neg h3]; rfl

theorem dictUpdate_mem {d : List (Str × Str)} (hn : (d.map Prod.fst).Nodup) (k v : Str) (x y : Str) :
    (x, y) ∈ dictUpdate d k v ↔ (x = k ∧ y = v) ∨ (x ≠ k ∧ (x, y) ∈ d) := by
  induction d with
  | nil => simp [dictUpdate]
  | cons p d ih =>
    obtain ⟨k', v'⟩ := p
    simp only [List.map_cons, List.nodup_cons] at hn
    unfold dictUpdate
    by_cases h : k' = k
    · subst h
      rw [if_pos rfl]
      simp only [List.mem_cons, Prod.mk.injEq]
      have : ∀ y, (k', y) ∉ d := fun y hy => hn.1 (List.mem_map.2 ⟨_, hy, rfl⟩)
      by_cases hx : x = k'
      · subst hx; simp [this]
      · simp [hx]
    · rw [if_neg h]
      simp only [List.mem_cons, Prod.mk.injEq, ih hn.2]
      by_cases hx : x = k
      · subst hx; simp [Ne.symm h]
      · simp [hx]

theorem dictUpdate_nodup {d : List (Str × Str)} (hn : (d.map Prod.fst).Nodup) (k v : Str) :
    ((dictUpdate d k v).map Prod.fst).Nodup := by
  rw [dictUpdate_keys]
  split
  · exact hn
  · next h =>
    rw [List.nodup_append]
    refine ⟨hn, by simp, ?_⟩
    intro a ha b hb
    simp only [List.mem_singleton] at hb
    subst hb
    intro e; subst e; exact h ha

/-- the dict of a list of fields -/
def dictOf (fs : List Field) : List (Str × Str) := fs.foldl (fun d f => dictUpdate d f.name f.value) []

theorem dictOf_snoc (fs : List Field) (f : Field) :
    dictOf (fs ++ [f]) = dictUpdate (dictOf fs) f.name f.value := by
  simp [dictOf]

theorem snoc_induction {α : Type _} {P : List α → Prop} (h0 : P []) (h1 : ∀ l a, P l → P (l ++ [a])) :
    ∀ l, P l := by
  intro l
  have : P l.reverse.reverse := by
    induction l.reverse with
    | nil => exact h0
    | cons a t ih => rw [List.reverse_cons]; exact h1 _ _ ih
  rwa [List.reverse_reverse] at this

theorem dictOf_nodup (fs : List Field) : ((dictOf fs).map Prod.fst).Nodup := by
  induction fs using snoc_induction with
  | h0 => simp [dictOf]
  | h1 l a ih => rw [dictOf_snoc]; exact dictUpdate_nodup ih _ _

theorem mem_eraseDups' (l : List Str) (a : Str) : a ∈ l.eraseDups ↔ a ∈ l := List.mem_eraseDups

theorem dictOf_keys (fs : List Field) :
    (dictOf fs).map Prod.fst = (fs.map (·.name)).eraseDups := by
  induction fs using snoc_induction with
  | h0 => rfl
  | h1 l a ih =>
    rw [dictOf_snoc, dictUpdate_keys, ih, List.map_append, List.eraseDups_append]
    simp only [List.map_cons, List.map_nil]
    by_cases h : a.name ∈ l.map (·.name)
    · rw [if_pos (List.mem_eraseDups.2 h)]
      have : [a.name].removeAll (l.map (·.name)) = [] := by
        simp [List.removeAll, List.filter_cons]
        simpa using h
      rw [this]; simp
    · rw [if_neg (fun g => h (List.mem_eraseDups.1 g))]
      have : [a.name].removeAll (l.map (·.name)) = [a.name] := by
        simp [List.removeAll, List.filter_cons]
        simpa using h
      rw [this]; rfl

theorem dictOf_mem (fs : List Field) (n v : Str) :
    (n, v) ∈ dictOf fs ↔
      ((fs.filter (fun f => f.name == n)).getLast?).map (·.value) = some v := by
  induction fs using snoc_induction with
  | h0 => simp [dictOf]
  | h1 l a ih =>
    rw [dictOf_snoc, dictUpdate_mem (dictOf_nodup l), ih, List.filter_append]
    by_cases h : n = a.name
    · subst h
      simp [eq_comm]
    · have : (a.name == n) = false := by simpa using Ne.symm h
      simp [h, this]

theorem dictOf_plain {fs : List Field} (h : ∀ f ∈ fs, PlainText f.name ∧ PlainText f.value) :
    ∀ p ∈ dictOf fs, PlainText p.1 ∧ PlainText p.2 := by
  rintro ⟨n, v⟩ hp
  have h1 := (dictOf_mem fs n v).1 hp
  obtain ⟨f, hf, hv⟩ := Option.map_eq_some_iff.1 h1
  have hm := List.mem_of_getLast? hf
  rw [List.mem_filter] at hm
  have e : f.name = n := by simpa using hm.2
  rw [← e, ← hv]
  exact h f hm.1

theorem dictUpdate_new {d : List (Str × Str)} {k v : Str} (h : k ∉ d.map Prod.fst) :
    dictUpdate d k v = d ++ [(k, v)] := by
  induction d with
  | nil => rfl
  | cons p d ih =>
    obtain ⟨k', v'⟩ := p
    simp only [List.map_cons, List.mem_cons, not_or] at h
    unfold dictUpdate
    rw [if_neg (Ne.symm h.1), ih h.2]; rfl

theorem dictOf_of_nodup {fs : List Field} (h : (fs.map (·.name)).Nodup) :
    dictOf fs = fs.map (fun f => (f.name, f.value)) := by
  induction fs using snoc_induction with
  | h0 => rfl
  | h1 l a ih =>
    rw [List.map_append, List.nodup_append] at h
    have ih := ih h.1
    rw [dictOf_snoc, dictUpdate_new, ih, List.map_append]; rfl
    rw [ih]
    intro hm
    simp only [List.map_map, List.mem_map, Function.comp] at hm
    obtain ⟨f, hf, e⟩ := hm
    exact h.2.2 f.name (List.mem_map.2 ⟨f, hf, rfl⟩) a.name (by simp) e

/-! ### names of the fields -/

theorem plain_names : registry.all (fun p => p.2.layouts.all fun l =>
    l.all fun s => decide (PlainText s.name)) = true := by decide +kernel

theorem plain_of_noSurrogates {s : Str} (h : NoSurrogates s) : PlainText s := by
  refine ⟨fun c hc => by have := h c hc; omega, ?_⟩
  induction s with
  | nil => trivial
  | cons u s ih =>
    cases s with
    | nil => trivial
    | cons v s =>
      refine ⟨?_, ih (fun c hc => h c (by simp [hc]))⟩
      have := h u (by simp)
      simp only [highSurrogate, Bool.and_eq_false_iff, decide_eq_false_iff_not]
      omega

def nodupNames (l : Layout) : Bool := decide ((l.map (·.name)).Nodup)

/-- the kinds in `repeatsName` that do not depend on the application type -/
def repeatsAlways (k : Str) (p : Bool) : Bool :=
  k == py!"R " || k == py!"RA" || ((k == py!"ET" || k == py!"TG") && p)

def namesOK (k : Str) (p : Bool) : Branch → Bool
  | .always l => nodupNames l == !repeatsAlways k p && k != py!"EU" && (k != py!"PR" || p)
  | .onApp _ cs o => !repeatsAlways k p &&
    cs.all (fun c => nodupNames c.2 == !repeatsName k p c.1) &&
    [py!"AE", py!"A"].all (fun a => !repeatsName k p a || (cs.lookup a).isSome) &&
    (match o with | .layout l => nodupNames l | _ => true)

theorem json_names_ok : registry.all (fun e => namesOK e.1 true e.2.onPrimary &&
    namesOK e.1 false e.2.onCont) = true := by decide +kernel

theorem repeatsName_always {k : Str} {p : Bool} {a : Str} (h1 : k ≠ py!"EU") (h2 : k ≠ py!"PR" ∨ p = true) :
    repeatsName k p a = repeatsAlways k p := by
  unfold repeatsName repeatsAlways
  by_cases c1 : k = py!"R " ∨ k = py!"RA"
  · rw [if_pos c1]; rcases c1 with rfl | rfl <;> cases p <;> decide
  · rw [if_neg c1]
    by_cases c2 : k = py!"ET" ∨ k = py!"TG"
    · rw [if_pos c2]; rcases c2 with rfl | rfl <;> cases p <;> decide
    · rw [if_neg c2, if_neg h1]
      simp only [not_or] at c1 c2
      have e : (k == py!"R " || k == py!"RA" || ((k == py!"ET" || k == py!"TG") && p)) = false := by
        simp [c1.1, c1.2, c2.1, c2.2]
      rw [e]
      split
      · next h3 => rcases h2 with h2 | h2
                   · exact absurd h3 h2
                   · simp [h2]
      · rfl

theorem repeatsName_cases {k : Str} {p : Bool} {a : Str} (h0 : repeatsAlways k p = false)
    (h : repeatsName k p a = true) : a = py!"AE" ∨ a = py!"A" := by
  unfold repeatsName at h
  unfold repeatsAlways at h0
  simp only [Bool.or_eq_false_iff, beq_eq_false_iff_ne] at h0
  rw [if_neg (by rintro (c | c); exact h0.1.1 c; exact h0.1.2 c)] at h
  split at h
  · next c =>
    have : p = true := h
    have h2 := h0.2
    rw [this] at h2
    rcases c with rfl | rfl <;> simp at h2
  · split at h
    · simp only [Bool.and_eq_true, decide_eq_true_eq] at h; exact .inl h.2
    · split at h
      · simp only [Bool.and_eq_true, decide_eq_true_eq] at h; exact .inr h.2
      · cases h

theorem names_nodup_iff [PyUnicode] {r : Record} {line : Str} (h : (r.read line).res = .ok true) :
    ((r.read line).obj.fields.map (·.name)).Nodup ↔
      repeatsName (r.read line).obj.ident (r.read line).obj.primary
        (pick line (appColumns (r.read line).obj.ident)) = false := by
  obtain ⟨k, d, l, ha⟩ := accepted h
  have hid := accepted_ident ha
  have hpr : (r.read line).obj.primary = (r.enter line k d).primary := by rw [ha.read]; rfl
  have hnames : (r.read line).obj.fields.map (·.name) = l.map (·.name) := by
    rw [accepted_fields ha, List.map_map]; rfl
  have hsel := ha.select
  rw [hid, hpr, hnames]
  generalize (r.enter line k d).primary = p at hsel ⊢
  have hall := List.all_eq_true.1 json_names_ok _ (lookup_mem ha.lookup)
  simp only [Bool.and_eq_true] at hall
  have hok : namesOK k p (d.branch p) = true := by
    unfold Definition.branch; cases p
    · exact hall.2
    · exact hall.1
  have hk := layouts_of ha.lookup
  simp only [layoutsOK, Bool.and_eq_true] at hk
  have hcol : selIs k (d.branch p) = true := by
    unfold Definition.branch; cases p
    · exact hk.1.2
    · exact hk.1.1
  have fin : ∀ b, (nodupNames l == !b) = true → ((l.map (·.name)).Nodup ↔ b = false) := by
    intro b hb
    have hb := eq_of_beq hb
    unfold nodupNames at hb
    cases b
    · exact ⟨fun _ => rfl, fun _ => of_decide_eq_true hb⟩
    · exact ⟨fun g => absurd g (of_decide_eq_false hb), nofun⟩
  cases hb : d.branch p with
  | always l' =>
    rw [hb] at hok hsel
    simp only [Branch.select, Except.ok.injEq] at hsel
    subst hsel
    simp only [namesOK, Bool.and_eq_true, bne_iff_ne, Bool.or_eq_true] at hok
    rw [repeatsName_always hok.1.2 hok.2]
    exact fin _ hok.1.1
  | onApp sel cs o =>
    rw [hb] at hok hsel hcol
    simp only [selIs, decide_eq_true_eq] at hcol
    simp only [Branch.select, hcol] at hsel
    simp only [namesOK, Bool.and_eq_true, List.all_eq_true] at hok
    obtain ⟨⟨⟨h1, h2⟩, h3⟩, h4⟩ := hok
    cases hc : cs.lookup (pick line (appColumns k)) with
    | some l' =>
      simp only [hc, Except.ok.injEq] at hsel
      subst hsel
      exact fin _ (h2 _ (lookup_mem hc))
    | none =>
      have hr : repeatsName k p (pick line (appColumns k)) = false := by
        cases hrr : repeatsName k p (pick line (appColumns k)) with
        | false => rfl
        | true =>
          have h0 : repeatsAlways k p = false := by simpa using h1
          have hm := h3 (pick line (appColumns k)) (by
            rcases repeatsName_cases h0 hrr with e | e <;> rw [e] <;> simp)
          rw [hrr, hc] at hm
          simp at hm
      simp only [hc] at hsel
      cases o with
      | empty => simp only [Except.ok.injEq] at hsel; exact absurd hsel.symm ha.ne
      | raise => cases hsel
      | layout l' =>
        simp only [Except.ok.injEq] at hsel
        subst hsel
        rw [hr]
        exact ⟨fun _ => rfl, fun _ => of_decide_eq_true h4⟩

/-! ### sorting -/

theorem strLe_iff {a b : Str} : strLe a b = true ↔ a ≤ b := by
  induction a generalizing b with
  | nil => simp [strLe]
  | cons x s ih =>
    cases b with
    | nil => simp [strLe]
    | cons y t =>
      rw [strLe, List.cons_le_cons_iff]
      by_cases h1 : x < y
      · simp [h1]
      · by_cases h2 : x = y
        · subst h2; simp [ih]
        · simp [h1, h2]

theorem insertSorted_perm (p : Str × Str) (d : List (Str × Str)) : (insertSorted p d).Perm (p :: d) := by
  induction d with
  | nil => exact .refl _
  | cons q d ih =>
    unfold insertSorted
    split
    · exact .refl _
    · exact (ih.cons q).trans (.swap p q d)

theorem sortItems_perm (d : List (Str × Str)) : (sortItems d).Perm d := by
  induction d with
  | nil => exact .refl _
  | cons p d ih =>
    have : sortItems (p :: d) = insertSorted p (sortItems d) := rfl
    rw [this]
    exact (insertSorted_perm p _).trans (ih.cons p)

theorem insertSorted_sorted {p : Str × Str} {d : List (Str × Str)}
    (h : d.Pairwise (fun a b => a.1 ≤ b.1)) : (insertSorted p d).Pairwise (fun a b => a.1 ≤ b.1) := by
  induction d with
  | nil => simp [insertSorted]
  | cons q d ih =>
    rw [List.pairwise_cons] at h
    unfold insertSorted
    by_cases hs : strLe p.1 q.1 = true
    · rw [if_pos hs, List.pairwise_cons]
      refine ⟨?_, List.pairwise_cons.2 h⟩
      intro x hx
      rcases List.mem_cons.1 hx with rfl | hx
      · exact strLe_iff.1 hs
      · exact List.le_trans (strLe_iff.1 hs) (h.1 x hx)
    · rw [if_neg hs, List.pairwise_cons]
      refine ⟨?_, ih h.2⟩
      intro x hx
      have hqp : q.1 ≤ p.1 := by
        rcases List.le_total p.1 q.1 with h' | h'
        · exact absurd (strLe_iff.2 h') hs
        · exact h'
      rcases List.mem_cons.1 ((insertSorted_perm p d).mem_iff.1 hx) with rfl | hx
      · exact hqp
      · exact h.1 x hx

theorem sortItems_sorted (d : List (Str × Str)) :
    (sortItems d).Pairwise (fun a b => a.1 ≤ b.1) := by
  induction d with
  | nil => exact .nil
  | cons p d ih => exact insertSorted_sorted ih

/-! ### characters -/

def Printable (s : Str) : Prop := ∀ c ∈ s, 32 ≤ c ∧ c ≤ 126

theorem printable_append {s t : Str} : Printable (s ++ t) ↔ Printable s ∧ Printable t := by
  unfold Printable
  constructor
  · intro h; exact ⟨fun c hc => h c (by simp [hc]), fun c hc => h c (by simp [hc])⟩
  · rintro ⟨h1, h2⟩ c hc
    rcases List.mem_append.1 hc with h | h
    · exact h1 c h
    · exact h2 c h

theorem hexDigit_printable {n : Nat} (h : n < 16) : 32 ≤ hexDigit n ∧ hexDigit n ≤ 126 := by
  unfold hexDigit; split <;> omega

theorem uEscape_printable (n : Nat) : Printable (uEscape n) := by
  unfold uEscape Printable
  simp only [List.mem_cons, List.not_mem_nil, or_false]
  rintro c (rfl | rfl | rfl | rfl | rfl | rfl)
  · omega
  · omega
  all_goals exact hexDigit_printable (Nat.mod_lt _ (by omega))

theorem jsonChar_printable (c : Nat) : Printable (jsonChar c) := by
  unfold jsonChar
  repeat' split
  all_goals first
    | (exact printable_append.2 ⟨uEscape_printable _, uEscape_printable _⟩)
    | exact uEscape_printable _
    | (intro d hd; simp only [List.mem_cons, List.not_mem_nil, or_false] at hd
       rcases hd with rfl | rfl <;> omega)
    | (intro d hd; simp only [List.mem_cons, List.not_mem_nil, or_false] at hd; subst hd; omega)

theorem jsonStr_printable (s : Str) : Printable (jsonStr s) := by
  unfold jsonStr
  rw [printable_append, printable_append]
  refine ⟨⟨?_, ?_⟩, ?_⟩
  · intro c hc; simp at hc; omega
  · intro c hc
    obtain ⟨d, _, hd⟩ := List.mem_flatMap.1 hc
    exact jsonChar_printable d c hd
  · intro c hc; simp at hc; omega

theorem jsonMembers_chars {P : Nat → Prop} {sep kv : Str} (hp : ∀ c, 32 ≤ c → c ≤ 126 → P c)
    (hsep : ∀ c ∈ sep, P c) (hkv : ∀ c ∈ kv, P c) (d : List (Str × Str)) :
    ∀ c ∈ jsonMembers sep kv d, P c := by
  have hs : ∀ s, ∀ c ∈ jsonStr s, P c := fun s c hc =>
    hp c (jsonStr_printable s c hc).1 (jsonStr_printable s c hc).2
  induction d with
  | nil => intro c hc; cases hc
  | cons p d ih =>
    obtain ⟨k, v⟩ := p
    cases d with
    | nil =>
      rw [jsonMembers]
      intro c hc
      rcases List.mem_append.1 hc with hc | hc
      · rcases List.mem_append.1 hc with hc | hc
        · exact hs _ _ hc
        · exact hkv _ hc
      · exact hs _ _ hc
    | cons q d =>
      rw [jsonMembers]
      · intro c hc
        rcases List.mem_append.1 hc with hc | hc
        · rcases List.mem_append.1 hc with hc | hc
          · rcases List.mem_append.1 hc with hc | hc
            · rcases List.mem_append.1 hc with hc | hc
              · exact hs _ _ hc
              · exact hkv _ hc
            · exact hs _ _ hc
          · exact hsep _ hc
        · exact ih _ hc
      · simp

end Arinc
