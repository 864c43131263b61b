import Verif.Spec.Objects
import Verif.Props.Shared
/-!
# Lemmas: objects that share lists
-/
namespace Arinc
open Py Spec

theorem filterMap_range' {α : Type} (xs ys : List α) :
    (List.range' xs.length ys.length).filterMap (fun a => (xs ++ ys)[a]?) = ys := by
  induction ys generalizing xs with
  | nil => rfl
  | cons y ys ih =>
    rw [List.length_cons, List.range'_succ, List.filterMap_cons]
    rw [List.getElem?_append_right (Nat.le_refl _), Nat.sub_self]
    simp only [List.getElem?_cons_zero]
    have := ih (xs ++ [y])
    simp only [List.length_append, List.length_cons, List.length_nil, List.append_assoc, List.cons_append,
      List.nil_append, Nat.zero_add] at this
    rw [this]

theorem get_alloc (s : Store) (fs : List Field) : (s.alloc fs).get s.lists.length = fs := by
  unfold Store.get Store.alloc
  simp only [List.getElem?_append_right (Nat.le_refl _), Nat.sub_self, List.getElem?_cons_zero]
  exact filterMap_range' _ _

/-- addresses in lists are addresses of fields -/
def Store.Ok (s : Store) : Prop := ∀ as ∈ s.lists, ∀ a ∈ as, a < s.cells.length

/-- the same objects, and perhaps new ones; new lists have new fields -/
structure Store.More (s t : Store) : Prop where
  cells : ∃ fs, t.cells = s.cells ++ fs
  lists : ∃ ls, t.lists = s.lists ++ ls ∧ ∀ as ∈ ls, ∀ a ∈ as, s.cells.length ≤ a ∧ a < t.cells.length

theorem Store.More.refl (s : Store) : s.More s := ⟨⟨[], by simp⟩, ⟨[], by simp⟩⟩

theorem Store.More.alloc {s t : Store} {fs : List Field} (h : (s.alloc fs).More t) : s.More t := by
  obtain ⟨⟨xs, hx⟩, ls, hl, hn⟩ := h
  simp only [Store.alloc] at hx hl hn
  refine ⟨⟨fs ++ xs, by simp [hx]⟩, List.range' s.cells.length fs.length :: ls, by simp [hl], ?_⟩
  intro as ha a hm
  rcases List.mem_cons.1 ha with rfl | ha
  · rw [List.mem_range'_1] at hm
    refine ⟨hm.1, ?_⟩
    rw [hx]; simp; omega
  · have := hn as ha a hm
    simp at this
    exact ⟨by omega, this.2⟩

theorem Store.More.ok {s t : Store} (h : s.More t) (hs : s.Ok) : t.Ok := by
  obtain ⟨⟨xs, hx⟩, ls, hl, hn⟩ := h
  intro as ha a hm
  rw [hl] at ha
  rcases List.mem_append.1 ha with ha | ha
  · have := hs as ha a hm
    rw [hx]; simp; omega
  · exact (hn as ha a hm).2

theorem Store.More.get {s t : Store} (h : s.More t) (hs : s.Ok) {l : Nat} (hl : l < s.lists.length) :
    t.get l = s.get l := by
  obtain ⟨⟨xs, hx⟩, ls, hls, -⟩ := h
  unfold Store.get
  rw [hls, List.getElem?_append_left hl, List.getElem?_eq_getElem hl]
  simp only
  have hm : s.lists[l] ∈ s.lists := List.getElem_mem hl
  have hk := hs _ hm
  generalize s.lists[l] = as at hk
  clear hm hl
  induction as with
  | nil => rfl
  | cons a as ih =>
    rw [List.filterMap_cons, List.filterMap_cons, ih fun b hb => hk b (by simp [hb])]
    rw [hx, List.getElem?_append_left (hk a (by simp))]

theorem exec_more {α : Type} (p : Sh α) (o : RecObj) (s : Store) : s.More (p.exec o s).store := by
  induction p generalizing o s with
  | done r => exact .refl s
  | print e k ih => exact ih o s
  | getIdent k ih => exact ih _ o s
  | getRaw k ih => exact ih _ o s
  | getCont k ih => exact ih _ o s
  | getFields k ih => exact ih _ o s
  | getDef k ih => exact ih _ o s
  | setIdent v k ih => exact ih _ s
  | setRaw v k ih => exact ih _ s
  | setCont v k ih => exact ih _ s
  | setFields v k ih => exact (ih { o with fields := s.lists.length } (s.alloc v)).alloc
  | setDef v k ih => exact ih _ s

theorem exec_fields {α : Type} (p : Sh α) (o : RecObj) (s : Store) (ho : o.fields < s.lists.length) :
    (p.exec o s).obj.fields < (p.exec o s).store.lists.length := by
  induction p generalizing o s with
  | done r => exact ho
  | print e k ih => exact ih o s ho
  | getIdent k ih => exact ih _ o s ho
  | getRaw k ih => exact ih _ o s ho
  | getCont k ih => exact ih _ o s ho
  | getFields k ih => exact ih _ o s ho
  | getDef k ih => exact ih _ o s ho
  | setIdent v k ih => exact ih { o with ident := v } s ho
  | setRaw v k ih => exact ih { o with raw := v } s ho
  | setCont v k ih => exact ih { o with continuation := v } s ho
  | setFields v k ih => exact ih { o with fields := s.lists.length } (s.alloc v) (by simp [Store.alloc])
  | setDef v k ih => exact ih { o with definition := v } s ho

/-- a result with `P` is reached only after a new list was assigned -/
def Sh.Assigns {α : Type} (P : α → Prop) : Sh α → Prop
  | .done r => ¬ P r
  | .print _ k => k.Assigns P
  | .getIdent k => ∀ v, (k v).Assigns P
  | .getRaw k => ∀ v, (k v).Assigns P
  | .getCont k => ∀ v, (k v).Assigns P
  | .getFields k => ∀ v, (k v).Assigns P
  | .getDef k => ∀ v, (k v).Assigns P
  | .setIdent _ k => k.Assigns P
  | .setRaw _ k => k.Assigns P
  | .setCont _ k => k.Assigns P
  | .setFields _ _ => True
  | .setDef _ k => k.Assigns P

theorem exec_new {α : Type} (p : Sh α) (o : RecObj) (s : Store) :
    ((p.exec o s).obj.fields = o.fields ∧ (p.exec o s).store = s) ∨ s.lists.length ≤ (p.exec o s).obj.fields := by
  induction p generalizing o s with
  | done r => exact .inl ⟨rfl, rfl⟩
  | print e k ih => exact ih o s
  | getIdent k ih => exact ih _ o s
  | getRaw k ih => exact ih _ o s
  | getCont k ih => exact ih _ o s
  | getFields k ih => exact ih _ o s
  | getDef k ih => exact ih _ o s
  | setIdent v k ih => exact ih { o with ident := v } s
  | setRaw v k ih => exact ih { o with raw := v } s
  | setCont v k ih => exact ih { o with continuation := v } s
  | setFields v k ih =>
    right
    rcases ih { o with fields := s.lists.length } (s.alloc v) with ⟨h, _⟩ | h
    · exact Nat.le_of_eq h.symm
    · refine Nat.le_trans ?_ h
      simp [Store.alloc]
  | setDef v k ih => exact ih { o with definition := v } s

theorem exec_assigns {α : Type} {P : α → Prop} {p : Sh α} (hp : p.Assigns P) (o : RecObj) (s : Store)
    (h : P (p.exec o s).res) : s.lists.length ≤ (p.exec o s).obj.fields := by
  induction p generalizing o s with
  | done r => exact absurd h hp
  | print e k ih => exact ih hp o s h
  | getIdent k ih => exact ih _ (hp _) o s h
  | getRaw k ih => exact ih _ (hp _) o s h
  | getCont k ih => exact ih _ (hp _) o s h
  | getFields k ih => exact ih _ (hp _) o s h
  | getDef k ih => exact ih _ (hp _) o s h
  | setIdent v k ih => exact ih hp { o with ident := v } s h
  | setRaw v k ih => exact ih hp { o with raw := v } s h
  | setCont v k ih => exact ih hp { o with continuation := v } s h
  | setFields v k ih =>
    rcases exec_new k { o with fields := s.lists.length } (s.alloc v) with ⟨h, _⟩ | h
    · exact Nat.le_of_eq h.symm
    · refine Nat.le_trans ?_ h
      simp [Store.alloc]
  | setDef v k ih => exact ih hp { o with definition := v } s h

theorem run_cons (m : Sharing) (i : Nat) (is : List Nat) : m.run (i :: is) = (m.step i).run is := rfl

/-- on objects with addresses a program does what it does on values -/
theorem exec_run (p : Sh Result) (o : RecObj) (s : Store) (ts : Nat → Sh Result) (log : List (Nat × Event))
    (ht : ts 0 = p) :
    ∃ n, let m := (Sharing.mk ts (o.view s) log).run (List.replicate n 0)
      m.threads 0 = .done (p.exec o s).res ∧ m.obj = (p.exec o s).obj.view (p.exec o s).store ∧
      saidBy m 0 = saidBy ⟨ts, o.view s, log⟩ 0 ++ (p.exec o s).out := by
  induction p generalizing o s ts log with
  | done r => exact ⟨0, ht, rfl, by simp [Sh.exec, Sharing.run]⟩
  | print e k ih =>
    obtain ⟨n, h1, h2, h3⟩ := ih o s (fun j => if j = 0 then k else ts j) (log ++ [(0, e)]) (if_pos rfl)
    refine ⟨n + 1, ?_⟩
    rw [List.replicate_succ, run_cons]
    have hs : (Sharing.mk ts (o.view s) log).step 0 =
        ⟨fun j => if j = 0 then k else ts j, o.view s, log ++ [(0, e)]⟩ := by
      simp only [Sharing.step, ht, Sharing.go]
    rw [hs]
    refine ⟨h1, h2, h3.trans ?_⟩
    simp [saidBy, Sh.exec]
  | getIdent k ih =>
    obtain ⟨n, h⟩ := ih o.ident o s (fun j => if j = 0 then k o.ident else ts j) log (if_pos rfl)
    refine ⟨n + 1, ?_⟩
    rw [List.replicate_succ, run_cons]
    have hs : (Sharing.mk ts (o.view s) log).step 0 = ⟨fun j => if j = 0 then k o.ident else ts j, o.view s, log⟩ := by
      simp only [Sharing.step, ht, Sharing.go, RecObj.view]
    rw [hs]; exact h
  | getRaw k ih =>
    obtain ⟨n, h⟩ := ih o.raw o s (fun j => if j = 0 then k o.raw else ts j) log (if_pos rfl)
    refine ⟨n + 1, ?_⟩
    rw [List.replicate_succ, run_cons]
    have hs : (Sharing.mk ts (o.view s) log).step 0 = ⟨fun j => if j = 0 then k o.raw else ts j, o.view s, log⟩ := by
      simp only [Sharing.step, ht, Sharing.go, RecObj.view]
    rw [hs]; exact h
  | getCont k ih =>
    obtain ⟨n, h⟩ := ih o.continuation o s (fun j => if j = 0 then k o.continuation else ts j) log (if_pos rfl)
    refine ⟨n + 1, ?_⟩
    rw [List.replicate_succ, run_cons]
    have hs : (Sharing.mk ts (o.view s) log).step 0 =
        ⟨fun j => if j = 0 then k o.continuation else ts j, o.view s, log⟩ := by
      simp only [Sharing.step, ht, Sharing.go, RecObj.view]
    rw [hs]; exact h
  | getFields k ih =>
    obtain ⟨n, h⟩ := ih (s.get o.fields) o s (fun j => if j = 0 then k (s.get o.fields) else ts j) log (if_pos rfl)
    refine ⟨n + 1, ?_⟩
    rw [List.replicate_succ, run_cons]
    have hs : (Sharing.mk ts (o.view s) log).step 0 =
        ⟨fun j => if j = 0 then k (s.get o.fields) else ts j, o.view s, log⟩ := by
      simp only [Sharing.step, ht, Sharing.go, RecObj.view]
    rw [hs]; exact h
  | getDef k ih =>
    obtain ⟨n, h⟩ := ih o.definition o s (fun j => if j = 0 then k o.definition else ts j) log (if_pos rfl)
    refine ⟨n + 1, ?_⟩
    rw [List.replicate_succ, run_cons]
    have hs : (Sharing.mk ts (o.view s) log).step 0 =
        ⟨fun j => if j = 0 then k o.definition else ts j, o.view s, log⟩ := by
      simp only [Sharing.step, ht, Sharing.go, RecObj.view]
    rw [hs]; exact h
  | setIdent v k ih =>
    obtain ⟨n, h⟩ := ih { o with ident := v } s (fun j => if j = 0 then k else ts j) log (if_pos rfl)
    refine ⟨n + 1, ?_⟩
    rw [List.replicate_succ, run_cons]
    have hs : (Sharing.mk ts (o.view s) log).step 0 =
        ⟨fun j => if j = 0 then k else ts j, RecObj.view { o with ident := v } s, log⟩ := by
      simp only [Sharing.step, ht, Sharing.go, RecObj.view]
    rw [hs]; exact h
  | setRaw v k ih =>
    obtain ⟨n, h⟩ := ih { o with raw := v } s (fun j => if j = 0 then k else ts j) log (if_pos rfl)
    refine ⟨n + 1, ?_⟩
    rw [List.replicate_succ, run_cons]
    have hs : (Sharing.mk ts (o.view s) log).step 0 =
        ⟨fun j => if j = 0 then k else ts j, RecObj.view { o with raw := v } s, log⟩ := by
      simp only [Sharing.step, ht, Sharing.go, RecObj.view]
    rw [hs]; exact h
  | setCont v k ih =>
    obtain ⟨n, h⟩ := ih { o with continuation := v } s (fun j => if j = 0 then k else ts j) log (if_pos rfl)
    refine ⟨n + 1, ?_⟩
    rw [List.replicate_succ, run_cons]
    have hs : (Sharing.mk ts (o.view s) log).step 0 =
        ⟨fun j => if j = 0 then k else ts j, RecObj.view { o with continuation := v } s, log⟩ := by
      simp only [Sharing.step, ht, Sharing.go, RecObj.view]
    rw [hs]; exact h
  | setFields v k ih =>
    obtain ⟨n, h⟩ := ih { o with fields := s.lists.length } (s.alloc v) (fun j => if j = 0 then k else ts j) log
      (if_pos rfl)
    refine ⟨n + 1, ?_⟩
    rw [List.replicate_succ, run_cons]
    have hs : (Sharing.mk ts (o.view s) log).step 0 =
        ⟨fun j => if j = 0 then k else ts j, RecObj.view { o with fields := s.lists.length } (s.alloc v), log⟩ := by
      simp only [Sharing.step, ht, Sharing.go, RecObj.view, get_alloc]
    rw [hs]; exact h
  | setDef v k ih =>
    obtain ⟨n, h⟩ := ih { o with definition := v } s (fun j => if j = 0 then k else ts j) log (if_pos rfl)
    refine ⟨n + 1, ?_⟩
    rw [List.replicate_succ, run_cons]
    have hs : (Sharing.mk ts (o.view s) log).step 0 =
        ⟨fun j => if j = 0 then k else ts j, RecObj.view { o with definition := v } s, log⟩ := by
      simp only [Sharing.step, ht, Sharing.go, RecObj.view]
    rw [hs]; exact h

variable [PyUnicode]

omit [PyUnicode] in
theorem primary_assigns {P : Except Exc Bool → Prop} {k : Bool → Sh (Except Exc Bool)} (h : ∀ b, (k b).Assigns P) :
    (primarySh k).Assigns P := by
  intro d
  cases d with
  | none => exact h false
  | some d =>
    intro c
    show (if c = py!"0" then k true else .getCont fun c => k (c == py!"1")).Assigns P
    split
    · exact h true
    · exact fun c => h _

omit [PyUnicode] in
theorem readFields_assigns (line : Str) : (readFieldsSh line).Assigns (· = .ok true) := by
  intro d
  cases d with
  | none => exact fun h => (by cases h)
  | some d =>
    refine primary_assigns fun b => ?_
    cases d.read line b with
    | error e => exact fun h => (by cases h)
    | ok fs => exact trivial

omit [PyUnicode] in
theorem checkApplication_assigns (line : Str) : (checkApplicationSh line).Assigns (· = .ok true) := by
  refine primary_assigns fun b => ?_
  split
  · intro d
    dsimp only
    split
    · exact fun h => (by cases h)
    · intro d
      dsimp only
      split
      · exact fun h => (by cases h)
      · intro raw
        dsimp only
        split
        · exact fun h => (by cases h)
        · intro d
          dsimp only
          split
          · exact fun h => (by cases h)
          · split
            · intro d
              dsimp only
              split
              · exact fun h => (by cases h)
              · intro d
                dsimp only
                split
                · exact fun h => (by cases h)
                · intro d
                  dsimp only
                  split
                  · exact fun h => (by cases h)
                  · exact fun raw h => (by cases h)
            · exact readFields_assigns line
  · exact readFields_assigns line

theorem checkCont_assigns (line : Str) : (checkContSh line).Assigns (· = .ok true) := by
  intro d
  dsimp only
  split
  · exact readFields_assigns line
  · intro raw d
    dsimp only
    split
    · exact fun h => (by cases h)
    · split
      · exact fun h => (by cases h)
      · intro c
        dsimp only
        split
        · intro d
          dsimp only
          split
          · exact fun h => (by cases h)
          · exact fun c raw h => (by cases h)
        · exact checkApplication_assigns line

theorem lookup_assigns (line : Str) : (lookupSh line).Assigns (· = .ok true) := by
  intro i
  dsimp only
  split
  · exact fun h => (by cases h)
  · exact checkCont_assigns line

theorem read_assigns (line : Str) : (readSh line).Assigns (· = .ok true) := by
  unfold readSh
  split
  · exact fun h => (by cases h)
  · show Sh.Assigns _ (match (Slice.pair 4 12).eval line with
      | .error e => .done (.error e)
      | .ok identifier_2 =>
        if inRegistry (slice line 4 6) then .setIdent (slice line 4 6) (lookupSh line)
        else if inRegistry identifier_2 then .setIdent identifier_2 (lookupSh line)
        else .done (.ok false))
    split
    · exact fun h => (by cases h)
    · split
      · exact lookup_assigns line
      · split
        · exact lookup_assigns line
        · exact fun h => (by cases h)

omit [PyUnicode] in
theorem map_assigns {α β : Type} {P : β → Prop} {f : α → β} {p : Sh α} (h : p.Assigns fun a => P (f a)) :
    (p.map f).Assigns P := by
  induction p with
  | done r => exact h
  | print e k ih => exact ih h
  | getIdent k ih => exact fun v => ih v (h v)
  | getRaw k ih => exact fun v => ih v (h v)
  | getCont k ih => exact fun v => ih v (h v)
  | getFields k ih => exact fun v => ih v (h v)
  | getDef k ih => exact fun v => ih v (h v)
  | setIdent v k ih => exact ih h
  | setRaw v k ih => exact ih h
  | setCont v k ih => exact ih h
  | setFields v k ih => exact trivial
  | setDef v k ih => exact ih h

/-- `read` that returns `True` has made a new list -/
theorem read_new (line : Str) (o : RecObj) (s : Store)
    (h : ((Call.read line).prog.exec o s).res = .bool (.ok true)) :
    s.lists.length ≤ ((Call.read line).prog.exec o s).obj.fields := by
  refine exec_assigns (P := (· = .bool (.ok true))) ?_ o s h
  refine map_assigns ?_
  have := read_assigns line
  have e : (fun a : Except Exc Bool => Result.bool a = .bool (.ok true)) = (· = .ok true) := by
    funext a; simp
  rw [e]; exact this

/-- a call does on objects with addresses what it does on values -/
theorem exec_call (c : Call) (o : RecObj) (s : Store) :
    ((c.prog.exec o s).res, (c.prog.exec o s).out) = aloneCall (o.view s) c ∧
    (c.prog.exec o s).obj.view (c.prog.exec o s).store = afterCall (o.view s) c := by
  obtain ⟨n, h1, h2, h3⟩ := exec_run c.prog o s (fun _ => c.prog) [] rfl
  have hsay : saidBy ⟨fun _ => c.prog, o.view s, []⟩ 0 = [] := rfl
  rw [hsay, List.nil_append] at h3
  by_cases hc : ∃ line, c = .read line
  · obtain ⟨line, rfl⟩ := hc
    obtain ⟨g1, g2⟩ := C95_same_line (o.view s) line _ 0 _ h1
    refine ⟨?_, h2.symm.trans g2⟩
    rw [← g1]; exact congrArg _ h3.symm
  · have hr : ∀ i : Nat, ∀ line, (fun _ : Nat => c) i ≠ .read line := fun i line h => hc ⟨line, h⟩
    obtain ⟨g1, g2⟩ := C95_readers (o.view s) (fun _ => c) hr (List.replicate n 0)
    have g2 := g2 0 _ h1
    refine ⟨?_, ?_⟩
    · rw [← g2]; exact congrArg _ h3.symm
    · have : afterCall (o.view s) c = o.view s := by
        cases c with
        | read line => exact absurd ⟨line, rfl⟩ hc
        | _ => rfl
      rw [this]
      exact h2.symm.trans g1

end Arinc
