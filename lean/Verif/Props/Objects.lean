import Verif.Lemmas.Objects
import Verif.Props.Continuation
import Verif.Props.Samples
import Verif.Py.Cpython311
/-!
# C109: objects, lists and copies
-/
namespace Arinc
open Py Spec
section
variable [PyUnicode]

omit [PyUnicode] in
/-- addresses are addresses of objects -/
structure Heap.Ok (h : Heap) : Prop where
  store : h.store.Ok
  recs : ∀ (i : Nat) (o : RecObj), h.recs[i]? = some o → o.fields < h.store.lists.length

omit [PyUnicode] in
theorem get_lt {α : Type} {xs : List α} {i : Nat} {x : α} (h : xs[i]? = some x) : i < xs.length := by
  rcases Nat.lt_or_ge i xs.length with h' | h'
  · exact h'
  · rw [List.getElem?_eq_none h'] at h; cases h

omit [PyUnicode] in
theorem More_lists {s t : Store} (h : s.More t) : s.lists.length ≤ t.lists.length := by
  obtain ⟨-, ls, hl, -⟩ := h
  rw [hl]; simp

omit [PyUnicode] in
theorem alloc_more (s : Store) (fs : List Field) : s.More (s.alloc fs) := Store.More.alloc (.refl _)

theorem heapStep_ok {h : Heap} (hh : h.Ok) {op : ObjOp} (hp : op.possible h = true) : (h.step op).1.Ok := by
  cases op with
  | new =>
    refine ⟨(alloc_more h.store []).ok hh.store, fun i o hi => ?_⟩
    show o.fields < (h.store.alloc []).lists.length
    simp only [Heap.step] at hi
    rcases Nat.lt_or_ge i h.recs.length with hl | hl
    · rw [List.getElem?_append_left hl] at hi
      exact Nat.lt_of_lt_of_le (hh.recs i o hi) (More_lists (alloc_more _ _))
    · rw [List.getElem?_append_right hl] at hi
      have hz := get_lt hi
      simp only [List.length_cons, List.length_nil, Nat.zero_add, Nat.lt_one_iff] at hz
      rw [hz] at hi
      cases hi
      simp [Store.alloc]
  | copy i =>
    simp only [Heap.step]
    split
    · exact hh
    · rename_i o ho
      refine ⟨hh.store, fun j o' hj => ?_⟩
      simp only at hj
      rcases Nat.lt_or_ge j h.recs.length with hl | hl
      · rw [List.getElem?_append_left hl] at hj
        exact hh.recs j o' hj
      · rw [List.getElem?_append_right hl] at hj
        have hz := get_lt hj
        simp only [List.length_cons, List.length_nil, Nat.zero_add, Nat.lt_one_iff] at hz
        rw [hz] at hj
        cases hj
        exact hh.recs i o ho
  | call i c =>
    simp only [Heap.step]
    split
    · exact hh
    · rename_i o ho
      have hm := exec_more c.prog o h.store
      refine ⟨hm.ok hh.store, fun j o' hj => ?_⟩
      simp only at hj
      by_cases hij : i = j
      · subst hij
        rw [List.getElem?_set_self (get_lt ho)] at hj
        cases hj
        exact exec_fields _ _ _ (hh.recs i o ho)
      · rw [List.getElem?_set_ne hij] at hj
        exact Nat.lt_of_lt_of_le (hh.recs j o' hj) (More_lists hm)
  | setField a f =>
    refine ⟨fun as ha b hb => ?_, hh.recs⟩
    have := hh.store as ha b hb
    simpa [Heap.step] using this
  | setList l as =>
    simp only [ObjOp.possible, Bool.and_eq_true, decide_eq_true_eq, List.all_eq_true] at hp
    refine ⟨fun bs hb b hm => ?_, fun i o hi => ?_⟩
    · simp only [Heap.step] at hb
      rcases List.mem_or_eq_of_mem_set hb with hb | rfl
      · exact hh.store bs hb b hm
      · exact hp.2 b hm
    · have := hh.recs i o hi
      simpa [Heap.step] using this
  | newField f =>
    refine ⟨fun as ha b hb => ?_, hh.recs⟩
    have := hh.store as ha b hb
    simp only [Heap.step, List.length_append]
    omega
  | newList as =>
    simp only [ObjOp.possible, List.all_eq_true, decide_eq_true_eq] at hp
    refine ⟨fun bs hb b hm => ?_, fun i o hi => ?_⟩
    · simp only [Heap.step] at hb
      rcases List.mem_append.1 hb with hb | hb
      · exact hh.store bs hb b hm
      · cases List.mem_singleton.1 hb
        exact hp b hm
    · have := hh.recs i o hi
      simp only [Heap.step, List.length_append]
      omega
  | setFields i l =>
    simp only [ObjOp.possible, Bool.and_eq_true, decide_eq_true_eq] at hp
    simp only [Heap.step]
    split
    · exact hh
    · rename_i o ho
      refine ⟨hh.store, fun j o' hj => ?_⟩
      simp only at hj
      by_cases hij : i = j
      · subst hij
        rw [List.getElem?_set_self (get_lt ho)] at hj
        cases hj
        exact hp.2
      · rw [List.getElem?_set_ne hij] at hj
        exact hh.recs j o' hj
  | setTexts i a b c =>
    simp only [Heap.step]
    split
    · exact hh
    · rename_i o ho
      refine ⟨hh.store, fun j o' hj => ?_⟩
      simp only at hj
      by_cases hij : i = j
      · subst hij
        rw [List.getElem?_set_self (get_lt ho)] at hj
        cases hj
        exact hh.recs i o ho
      · rw [List.getElem?_set_ne hij] at hj
        exact hh.recs j o' hj

theorem heapRun_ok {h : Heap} (hh : h.Ok) (ops : List ObjOp) : (h.run ops).1.Ok := by
  induction ops generalizing h with
  | nil => exact hh
  | cons op ops ih =>
    unfold Heap.run
    split
    · rename_i hp; exact ih (heapStep_ok hh hp)
    · exact ih hh

theorem reached_ok {h : Heap} (hr : Reached h) : h.Ok := by
  obtain ⟨ops, rfl⟩ := hr
  refine heapRun_ok ⟨fun as ha => (by cases ha), fun i o hi => ?_⟩ ops
  cases hi

theorem call_ok {h : Heap} (hh : h.Ok) {i : Nat} {r : Record} (hv : h.view i = some r) (c : Call) :
    (h.step (.call i c)).2 = some (aloneCall r c) ∧ (h.step (.call i c)).1.view i = some (afterCall r c) ∧
    (∀ j, j ≠ i → (h.step (.call i c)).1.view j = h.view j) ∧
    (h.step (.call i c)).1.recs.length = h.recs.length := by
  unfold Heap.view at hv
  cases ho : h.recs[i]? with
  | none => rw [ho] at hv; cases hv
  | some o =>
    rw [ho] at hv
    obtain rfl : o.view h.store = r := by simpa using hv
    obtain ⟨h1, h2⟩ := exec_call c o h.store
    have hm := exec_more c.prog o h.store
    simp only [Heap.step, ho, Heap.view]
    refine ⟨congrArg some h1, ?_, fun j hj => ?_, by simp⟩
    · rw [List.getElem?_set_self (get_lt ho)]
      exact congrArg some h2
    · rw [List.getElem?_set_ne (Ne.symm hj)]
      cases hjo : h.recs[j]? with
      | none => rfl
      | some o' =>
        simp only [Option.map_some, Option.some.injEq, RecObj.view]
        rw [hm.get hh.store (hh.recs j o' hjo)]

/-- C109: Whatever a caller has done to objects, lists and `Field`s before: a method gives, prints and changes what it does
    to an object with the same attributes and fields and a list of its own. Other objects are not changed, not even those
    that have the same list. -/
theorem C109_call {h : Heap} (hh : Reached h) {i : Nat} {r : Record} (hv : h.view i = some r) (c : Call) :
    (h.step (.call i c)).2 = some (aloneCall r c) ∧ (h.step (.call i c)).1.view i = some (afterCall r c) ∧
    ∀ j, j ≠ i → (h.step (.call i c)).1.view j = h.view j :=
  let ⟨h1, h2, h3, _⟩ := call_ok (reached_ok hh) hv c
  ⟨h1, h2, h3⟩

theorem plain_more {h : Heap} (hh : h.Ok) (ops : List ObjOp) (hp : ∀ op ∈ ops, plainOp op = true) :
    ∀ l < h.store.lists.length, (h.run ops).1.store.get l = h.store.get l := by
  induction ops generalizing h with
  | nil => exact fun _ _ => rfl
  | cons op ops ih =>
    have ho := hp op (by simp)
    have hp : ∀ op ∈ ops, plainOp op = true := fun o h => hp o (by simp [h])
    intro l hl
    unfold Heap.run
    split
    · rename_i hpos
      have hm : h.store.More (h.step op).1.store := by
        cases op with
        | new => exact alloc_more _ _
        | copy i => simp only [Heap.step]; split <;> exact .refl _
        | call i c =>
          simp only [Heap.step]
          split
          · exact .refl _
          · exact exec_more _ _ _
        | _ => cases ho
      exact (ih (heapStep_ok hh hpos) hp l (Nat.lt_of_lt_of_le hl (More_lists hm))).trans (hm.get hh.store hl)
    · exact ih hh hp l hl

/-- C109: The library never changes a list or a `Field` that it has handed out: what a caller has kept (`fs = r.fields`) is
    the same after any calls on any objects, also after `r` has read another record. -/
theorem C109_kept {h : Heap} (hh : Reached h) {ops : List ObjOp} (hp : ∀ op ∈ ops, plainOp op = true) {l : Nat}
    (hl : l < h.store.lists.length) : (h.run ops).1.store.get l = h.store.get l :=
  plain_more (reached_ok hh) ops hp l hl

/-- objects and values agree -/
def Heap.Like (h : Heap) (rs : List Record) : Prop := h.recs.length = rs.length ∧ ∀ i, h.view i = rs[i]?

theorem like_step {h : Heap} (hh : h.Ok) {rs : List Record} (hl : h.Like rs) {op : ObjOp} (hp : plainOp op = true) :
    (h.step op).1.Like (byValue rs op).1 ∧ (h.step op).2 = (byValue rs op).2 := by
  obtain ⟨hlen, hview⟩ := hl
  cases op with
  | new =>
    refine ⟨⟨by simp [Heap.step, byValue, hlen], fun i => ?_⟩, rfl⟩
    simp only [Heap.step, byValue, Heap.view]
    have ha := alloc_more h.store []
    rcases Nat.lt_or_ge i h.recs.length with hi | hi
    · rw [List.getElem?_append_left hi, List.getElem?_append_left (hlen ▸ hi), ← hview i, Heap.view]
      cases ho : h.recs[i]? with
      | none => rfl
      | some o =>
        simp only [Option.map_some, RecObj.view]
        rw [ha.get hh.store (hh.recs i o ho)]
    · rw [List.getElem?_append_right hi, List.getElem?_append_right (hlen ▸ hi), hlen]
      cases hk : i - rs.length with
      | zero =>
        simp only [List.getElem?_cons_zero, Option.map_some, RecObj.view, get_alloc]
        rfl
      | succ n => rfl
  | copy i =>
    have hv := hview i
    unfold Heap.view at hv
    simp only [Heap.step, byValue]
    cases ho : h.recs[i]? with
    | none =>
      rw [ho] at hv
      rw [← hv]
      exact ⟨⟨hlen, hview⟩, rfl⟩
    | some o =>
      rw [ho] at hv
      rw [← hv]
      simp only [Option.map_some]
      refine ⟨⟨by simp [hlen], fun j => ?_⟩, trivial⟩
      simp only [Heap.view]
      rcases Nat.lt_or_ge j h.recs.length with hj | hj
      · rw [List.getElem?_append_left hj, List.getElem?_append_left (hlen ▸ hj)]
        exact hview j
      · rw [List.getElem?_append_right hj, List.getElem?_append_right (hlen ▸ hj), hlen]
        cases hk : j - rs.length with
        | zero => rfl
        | succ n => rfl
  | call i c =>
    have hv := hview i
    cases hr : rs[i]? with
    | none =>
      have ho : h.recs[i]? = none := by
        rw [hr] at hv; unfold Heap.view at hv
        cases ho : h.recs[i]? with
        | none => rfl
        | some o => rw [ho] at hv; cases hv
      simp only [Heap.step, ho, byValue, hr]
      exact ⟨⟨hlen, hview⟩, trivial⟩
    | some r =>
      rw [hr] at hv
      obtain ⟨h1, h2, h3, h4⟩ := call_ok hh hv c
      simp only [byValue, hr]
      refine ⟨⟨by rw [h4, hlen]; simp, fun j => ?_⟩, h1⟩
      by_cases hij : j = i
      · subst hij
        rw [h2, List.getElem?_set_self (get_lt hr)]
      · rw [h3 j hij, List.getElem?_set_ne (Ne.symm hij)]
        exact hview j
  | _ => cases hp

theorem like_run {h : Heap} (hh : h.Ok) {rs : List Record} (hl : h.Like rs) {ops : List ObjOp}
    (hp : ∀ op ∈ ops, plainOp op = true) :
    (h.run ops).1.Like (byValues rs ops).1 ∧ (h.run ops).2 = (byValues rs ops).2 := by
  induction ops generalizing h rs with
  | nil => exact ⟨hl, rfl⟩
  | cons op ops ih =>
    have ho := hp op (by simp)
    have hp : ∀ op ∈ ops, plainOp op = true := fun o h => hp o (by simp [h])
    have hc : op.possible h = possibleValue rs op := by
      cases op with
      | new => rfl
      | copy i => simp only [ObjOp.possible, possibleValue, hl.1]
      | call i c => simp only [ObjOp.possible, possibleValue, hl.1]
      | _ => cases ho
    unfold Heap.run byValues
    rw [hc]
    split
    · rename_i hpos
      obtain ⟨h1, h2⟩ := like_step hh hl ho
      obtain ⟨h3, h4⟩ := ih (heapStep_ok hh (hc.trans hpos)) h1 hp
      exact ⟨h3, by simp only [h2, h4]⟩
    · exact ih hh hl hp

/-- C109: For a program that only makes objects, copies them and calls methods, it makes no difference that copies share
    lists: it gets and prints, and its objects are, as if every object had a list of its own. -/
theorem C109_by_value {ops : List ObjOp} (hp : ∀ op ∈ ops, plainOp op = true) :
    (Heap.start.run ops).2 = (byValues [] ops).2 ∧
    ∀ i, (Heap.start.run ops).1.view i = (byValues [] ops).1[i]? := by
  have h0 : Heap.start.Ok := ⟨fun as ha => (by cases ha), fun i o hi => (by cases hi)⟩
  obtain ⟨h1, h2⟩ := like_run h0 (rs := []) ⟨rfl, fun i => rfl⟩ hp
  exact ⟨h2, h1.2⟩

omit [PyUnicode] in
/-- a list whose fields are not among `as` is not changed by a change of these -/
theorem get_set_field {s : Store} {l a : Nat} {f : Field} (h : ∀ bs, s.lists[l]? = some bs → a ∉ bs) :
    Store.get { s with cells := s.cells.set a f } l = s.get l := by
  unfold Store.get
  simp only
  cases hl : s.lists[l]? with
  | none => rfl
  | some bs =>
    have hb := h bs hl
    simp only
    clear hl h
    induction bs with
    | nil => rfl
    | cons b bs ih =>
      have hab : a ≠ b := fun e => hb (by simp [e])
      rw [List.filterMap_cons, List.filterMap_cons, ih fun h => hb (by simp [h]), List.getElem?_set_ne hab]

omit [PyUnicode] in
theorem get_set_list {s : Store} {l l' : Nat} {as : List Nat} (h : l' ≠ l) :
    Store.get { s with lists := s.lists.set l' as } l = s.get l := by
  unfold Store.get
  simp only [List.getElem?_set_ne h]

theorem edits_apart {h : Heap} {l : Nat} {as : List Nat} {j : Nat} {o : RecObj} (ho : h.recs[j]? = some o)
    (hl : o.fields ≠ l) (ha : ∀ bs, h.store.lists[o.fields]? = some bs → ∀ b ∈ bs, b ∉ as) {es : List ObjOp}
    (he : ∀ e ∈ es, touchesOnly l as e) : (h.run es).1.view j = h.view j := by
  induction es generalizing h with
  | nil => rfl
  | cons e es ih =>
    have h1 := he e (by simp)
    have he : ∀ e ∈ es, touchesOnly l as e := fun x hx => he x (by simp [hx])
    unfold Heap.run
    split
    · have key : (h.step e).1.recs = h.recs ∧ (h.step e).1.store.lists[o.fields]? = h.store.lists[o.fields]? ∧
          (h.step e).1.store.get o.fields = h.store.get o.fields := by
        cases e with
        | setField a f =>
          refine ⟨rfl, rfl, ?_⟩
          exact get_set_field fun bs hb hm => ha bs hb a hm h1
        | setList l' bs =>
          cases h1
          exact ⟨rfl, List.getElem?_set_ne (Ne.symm hl), get_set_list (Ne.symm hl)⟩
        | _ => exact h1.elim
      obtain ⟨k1, k2, k3⟩ := key
      simp only
      rw [ih (by rw [k1]; exact ho) (by rw [k2]; exact ha) he]
      simp only [Heap.view, k1, ho, Option.map_some, RecObj.view, k3]
    · exact ih ho ha he

/-- C109: After `r.read(line)` has returned `True`, `r` has a list and `Field`s that no other object has: whatever the caller
    then does to these, the other objects (also copies of `r` made before) stay as they are. -/
theorem C109_own_list {h : Heap} (hh : Reached h) {i : Nat} {r : Record} (hv : h.view i = some r) {line : Str}
    (ht : (r.read line).res = .ok true) {o : RecObj} (ho : (h.step (.call i (.read line))).1.recs[i]? = some o)
    {as : List Nat} (ha : (h.step (.call i (.read line))).1.store.lists[o.fields]? = some as) {es : List ObjOp}
    (he : ∀ e ∈ es, touchesOnly o.fields as e) {j : Nat} (hj : j ≠ i) :
    ((h.step (.call i (.read line))).1.run es).1.view j = h.view j := by
  have hok := reached_ok hh
  obtain ⟨g1, g2, g3, _⟩ := call_ok hok hv (.read line)
  rw [← g3 j hj]
  cases hi : h.recs[i]? with
  | none => unfold Heap.view at hv; rw [hi] at hv; cases hv
  | some o0 =>
    have hv' : o0.view h.store = r := by
      unfold Heap.view at hv; rw [hi] at hv; simpa using hv
    have hres : ((Call.read line).prog.exec o0 h.store).res = .bool (.ok true) := by
      have := (exec_call (.read line) o0 h.store).1
      rw [hv'] at this
      refine (congrArg Prod.fst this).trans ?_
      show Result.bool (r.read line).res = _
      rw [ht]
    have hnew := read_new line o0 h.store hres
    have hstep : (h.step (.call i (.read line))).1 = ⟨h.recs.set i ((Call.read line).prog.exec o0 h.store).obj,
        ((Call.read line).prog.exec o0 h.store).store⟩ := by
      simp only [Heap.step, hi]
    rw [hstep] at ho ha ⊢
    simp only [List.getElem?_set_self (get_lt hi), Option.some.injEq] at ho
    subst ho
    have hm := exec_more (Call.read line).prog o0 h.store
    generalize (Call.read line).prog.exec o0 h.store = x at *
    cases hjo : h.recs[j]? with
    | none =>
      have hl : h.recs.length ≤ j := by
        rcases Nat.lt_or_ge j h.recs.length with h' | h'
        · rw [List.getElem?_eq_getElem h'] at hjo; cases hjo
        · exact h'
      have hrecs : ∀ (es : List ObjOp) (k : Heap), k.recs.length = h.recs.length →
          (∀ e ∈ es, touchesOnly x.obj.fields as e) → (k.run es).1.recs.length = h.recs.length := by
        intro es
        induction es with
        | nil => exact fun k hk _ => hk
        | cons e es ih =>
          intro k hk he
          unfold Heap.run
          split
          · refine ih _ ?_ fun y hy => he y (by simp [hy])
            have := he e (by simp)
            cases e with
            | setField a f => exact hk
            | setList l bs => exact hk
            | _ => exact this.elim
          · exact ih k hk fun y hy => he y (by simp [hy])
      unfold Heap.view
      have e1 : ((Heap.mk (h.recs.set i x.obj) x.store).run es).1.recs.length ≤ j := by
        rw [hrecs es ⟨h.recs.set i x.obj, x.store⟩ (List.length_set ..) he]; exact hl
      have e2 : (h.recs.set i x.obj).length ≤ j := by rw [List.length_set]; exact hl
      rw [List.getElem?_eq_none e1, List.getElem?_eq_none e2]; rfl
    | some oj =>
      have hlt := hok.recs j oj hjo
      refine edits_apart (o := oj) ?_ ?_ ?_ he
      · show (h.recs.set i x.obj)[j]? = some oj
        rw [List.getElem?_set_ne (Ne.symm hj)]; exact hjo
      · omega
      · intro bs hb b hmb hba
        obtain ⟨-, ls, hls, hfresh⟩ := hm
        simp only at hb ha
        rw [hls, List.getElem?_append_left hlt] at hb
        rw [hls, List.getElem?_append_right hnew] at ha
        have hold := hok.store bs (List.mem_of_getElem? hb) b hmb
        have hnew := (hfresh as (List.mem_of_getElem? ha) b hba).1
        omega

/-- C109: A new object has no fields, and a list that no other object has. -/
theorem C109_new_list {h : Heap} (hh : Reached h) :
    (h.step .new).1.view h.recs.length = some Record.new ∧
    ∀ o, (h.step .new).1.recs[h.recs.length]? = some o → ∀ es, (∀ e ∈ es, touchesOnly o.fields [] e) →
      ∀ j < h.recs.length, ((h.step .new).1.run es).1.view j = h.view j := by
  have hok := reached_ok hh
  have hlast : (h.step .new).1.recs[h.recs.length]? = some ⟨[], [], [], h.store.lists.length, none⟩ := by
    simp [Heap.step]
  refine ⟨?_, fun o ho es he j hj => ?_⟩
  · unfold Heap.view
    rw [hlast]
    simp only [Heap.step, Option.map_some, RecObj.view, get_alloc]
    rfl
  · cases hlast.symm.trans ho
    have hjo := List.getElem?_eq_getElem hj
    have hlt := hok.recs j _ hjo
    have hjo' : (h.step .new).1.recs[j]? = some h.recs[j] := by
      simp only [Heap.step]
      rw [List.getElem?_append_left hj]; exact hjo
    rw [edits_apart hjo' (Nat.ne_of_lt hlt) (fun bs _ b _ => by simp) he]
    unfold Heap.view
    rw [hjo', hjo]
    simp only [Option.map_some, RecObj.view, Heap.step]
    rw [(alloc_more h.store []).get hok.store hlt]

/-- C109: Whatever a caller has done to objects, lists and `Field`s: after `r.read(line)` has returned `True`, `r` shows what a
    new object shows that has read the line. (Airway restrictions are the exception known from C15.) -/
theorem C109_forgotten {h : Heap} (hh : Reached h) {i : Nat} {r : Record} (hv : h.view i = some r) {line : Str}
    (hEU : ¬ Resolves line (py!"EU")) (ht : (r.read line).res = .ok true) :
    ∃ r', (h.step (.call i (.read line))).1.view i = some r' ∧ r'.fields = (Record.new.read line).obj.fields ∧
      (∀ output, aloneCall r' (.decode output) = aloneCall (Record.new.read line).obj (.decode output)) ∧
      ∀ output single, aloneCall r' (.json output single) = aloneCall (Record.new.read line).obj (.json output single) := by
  obtain ⟨-, h2, -⟩ := C109_call hh hv (.read line)
  obtain ⟨-, -, h3⟩ := C15_reuse r line hEU
  obtain ⟨f1, f2, f3⟩ := h3 ht
  refine ⟨_, h2, f1, fun output => ?_, fun output single => ?_⟩
  · simp only [aloneCall, afterCall, Record.decode, Record.info, f1, f2, f3]
  · simp only [aloneCall, afterCall, Record.json, Record.dict, f1]

end

section
attribute [local instance] Py.Tables.cpython311

/-- an object reads an airport and is copied; then `fields[0].value` is changed through the copy -/
def Sample.copied : List ObjOp :=
  [.new, .call 0 (.read Sample.airport), .copy 0, .setField 0 ⟨py!"Record Type", py!"T", .f002⟩]

/-- C109: A copy made with `copy.copy` shares the list and the `Field`s with the original, until one of them reads again: a
    change made through the one is seen through the other. -/
theorem C109_copies_share :
    (((Heap.start.run Sample.copied).1.view 0).map fun r => r.fields.take 1) =
      some [⟨py!"Record Type", py!"T", .f002⟩] ∧
    (Heap.start.run Sample.copied).1.view 0 = (Heap.start.run Sample.copied).1.view 1 ∧
    (((Heap.start.run (Sample.copied ++ [.call 1 (.read Sample.airport)])).1.view 1).map fun r => r.fields.take 1) =
      some [⟨py!"Record Type", py!"S", .f002⟩] ∧
    (((Heap.start.run (Sample.copied ++ [.call 1 (.read Sample.airport)])).1.view 0).map fun r => r.fields.take 1) =
      some [⟨py!"Record Type", py!"T", .f002⟩] := by
  decide +kernel

/-- hypotheses of `C109_call`, `C109_own_list`, `C109_forgotten` are met after edits -/
example : Reached (Heap.start.run Sample.copied).1 ∧
    (∃ r, (Heap.start.run Sample.copied).1.view 1 = some r ∧ (r.read Sample.vhf).res = .ok true) ∧
    ¬ Resolves Sample.vhf (py!"EU") := by
  refine ⟨⟨_, rfl⟩, ?_, ?_⟩
  · have h : ((Heap.start.run Sample.copied).1.view 1).map (fun r => (r.read Sample.vhf).res) = some (.ok true) := by
      decide +kernel
    cases hv : (Heap.start.run Sample.copied).1.view 1 with
    | none => rw [hv] at h; cases h
    | some r =>
      rw [hv] at h
      exact ⟨r, rfl, by simpa using h⟩
  · intro h
    generalize hk : py!"EU" = k at h
    cases h with
    | byPair h => exact absurd hk (by decide +kernel)
    | bySplit h₁ h₂ => exact absurd hk (by decide +kernel)

/-- hypotheses of `C109_kept` and `C109_by_value` are met: the list of the airport after its object has read a navaid -/
example : (∀ op ∈ [ObjOp.call 0 (.read Sample.vhf), .copy 1, .call 2 (.decode true)], plainOp op = true) ∧
    1 < (Heap.start.run Sample.copied).1.store.lists.length ∧
    ((Heap.start.run Sample.copied).1.store.get 1).length = 28 := by decide +kernel

end
end Arinc
