import Verif.Lemmas.Read
import Verif.Lemmas.Fate
import Verif.Spec.Shared
/-!
# Lemmas: programs of threads that share a `Record`
-/
namespace Arinc
open Py Spec

/-- what is known about the values of the attributes -/
structure View where
  ident : Str → Prop
  raw : Str → Prop
  cont : Str → Prop
  fields : List Field → Prop
  defn : Option Definition → Prop

/-- the attributes have such values -/
structure View.Holds (v : View) (r : Record) : Prop where
  ident : v.ident r.ident
  raw : v.raw r.raw
  cont : v.cont r.continuation
  fields : v.fields r.fields
  defn : v.defn r.definition

/-- of which attributes a thread knows that they have been assigned -/
structure Flags where
  ident : Prop
  raw : Prop
  cont : Prop
  fields : Prop
  defn : Prop

/-- attributes with a flag have a good value -/
structure Flags.Holds (w : Flags) (good : View) (r : Record) : Prop where
  ident : w.ident → good.ident r.ident
  raw : w.raw → good.raw r.raw
  cont : w.cont → good.cont r.continuation
  fields : w.fields → good.fields r.fields
  defn : w.defn → good.defn r.definition

/-- Whatever other threads do, as long as they assign good values only: this program assigns good values only, and
    ends with `post` of its flags, prints and result. -/
def Sh.Ok {α : Type} (any good : View) (post : Flags → List Event → α → Prop) :
    Sh α → Flags → List Event → Prop
  | .done r, w, out => post w out r
  | .print e k, w, out => k.Ok any good post w (out ++ [e])
  | .getIdent k, w, out => ∀ v, any.ident v → (w.ident → good.ident v) → (k v).Ok any good post w out
  | .getRaw k, w, out => ∀ v, any.raw v → (w.raw → good.raw v) → (k v).Ok any good post w out
  | .getCont k, w, out => ∀ v, any.cont v → (w.cont → good.cont v) → (k v).Ok any good post w out
  | .getFields k, w, out => ∀ v, any.fields v → (w.fields → good.fields v) → (k v).Ok any good post w out
  | .getDef k, w, out => ∀ v, any.defn v → (w.defn → good.defn v) → (k v).Ok any good post w out
  | .setIdent v k, w, out => good.ident v ∧ k.Ok any good post { w with ident := True } out
  | .setRaw v k, w, out => good.raw v ∧ k.Ok any good post { w with raw := True } out
  | .setCont v k, w, out => good.cont v ∧ k.Ok any good post { w with cont := True } out
  | .setFields v k, w, out => good.fields v ∧ k.Ok any good post { w with fields := True } out
  | .setDef v k, w, out => good.defn v ∧ k.Ok any good post { w with defn := True } out

theorem Sh.Ok.map {α β : Type} {any good : View} {post : Flags → List Event → β → Prop} {f : α → β} {p : Sh α}
    {w : Flags} {out : List Event} (h : p.Ok any good (fun w out a => post w out (f a)) w out) :
    (p.map f).Ok any good post w out := by
  induction p generalizing w out with
  | done r => exact h
  | print e k ih => exact ih h
  | getIdent k ih => exact fun v h1 h2 => ih v (h v h1 h2)
  | getRaw k ih => exact fun v h1 h2 => ih v (h v h1 h2)
  | getCont k ih => exact fun v h1 h2 => ih v (h v h1 h2)
  | getFields k ih => exact fun v h1 h2 => ih v (h v h1 h2)
  | getDef k ih => exact fun v h1 h2 => ih v (h v h1 h2)
  | setIdent v k ih => exact ⟨h.1, ih h.2⟩
  | setRaw v k ih => exact ⟨h.1, ih h.2⟩
  | setCont v k ih => exact ⟨h.1, ih h.2⟩
  | setFields v k ih => exact ⟨h.1, ih h.2⟩
  | setDef v k ih => exact ⟨h.1, ih h.2⟩

theorem ok_mono {α : Type} {any good : View} {post post' : Flags → List Event → α → Prop}
    (hp : ∀ w out r, post w out r → post' w out r) {p : Sh α} {w : Flags} {out : List Event}
    (h : p.Ok any good post w out) : p.Ok any good post' w out := by
  induction p generalizing w out with
  | done r => exact hp _ _ _ h
  | print e k ih => exact ih h
  | getIdent k ih => exact fun v h1 h2 => ih v (h v h1 h2)
  | getRaw k ih => exact fun v h1 h2 => ih v (h v h1 h2)
  | getCont k ih => exact fun v h1 h2 => ih v (h v h1 h2)
  | getFields k ih => exact fun v h1 h2 => ih v (h v h1 h2)
  | getDef k ih => exact fun v h1 h2 => ih v (h v h1 h2)
  | setIdent v k ih => exact ⟨h.1, ih h.2⟩
  | setRaw v k ih => exact ⟨h.1, ih h.2⟩
  | setCont v k ih => exact ⟨h.1, ih h.2⟩
  | setFields v k ih => exact ⟨h.1, ih h.2⟩
  | setDef v k ih => exact ⟨h.1, ih h.2⟩

theorem Sh.Ok.prints {α : Type} {any good : View} {post : Flags → List Event → α → Prop} {es : List Event}
    {k : Sh α} {w : Flags} {out : List Event} (h : k.Ok any good post w (out ++ es)) :
    (Sh.prints es k).Ok any good post w out := by
  induction es generalizing out with
  | nil => simpa [Sh.prints] using h
  | cons e es ih => exact ih (by simpa using h)

/-- what holds at every moment -/
structure Sharing.Fine (any good : View) (post : Nat → Flags → List Event → Result → Prop) (m : Sharing) : Prop where
  attrs : any.Holds m.obj
  threads : ∀ i, ∃ w : Flags, w.Holds good m.obj ∧ (m.threads i).Ok any good (post i) w (saidBy m i)

theorem saidBy_same {m : Sharing} {i : Nat} {e : Event} {obj : Record} {ts : Nat → Sh Result} :
    saidBy ⟨ts, obj, m.log ++ [(i, e)]⟩ i = saidBy m i ++ [e] := by
  simp [saidBy]

theorem saidBy_other {m : Sharing} {i j : Nat} {e : Event} {obj : Record} {ts : Nat → Sh Result} (h : j ≠ i) :
    saidBy ⟨ts, obj, m.log ++ [(i, e)]⟩ j = saidBy m j := by
  simp [saidBy, Ne.symm h]

theorem Sharing.Fine.step {any good : View} {post : Nat → Flags → List Event → Result → Prop} {m : Sharing}
    (h : m.Fine any good post) (hi : ∀ v, good.ident v → any.ident v) (hr : ∀ v, good.raw v → any.raw v)
    (hc : ∀ v, good.cont v → any.cont v) (hf : ∀ v, good.fields v → any.fields v)
    (hd : ∀ v, good.defn v → any.defn v) (i : Nat) : (m.step i).Fine any good post := by
  have same : ∀ p : Sh Result, (∀ w : Flags, w.Holds good m.obj →
      (m.threads i).Ok any good (post i) w (saidBy m i) → p.Ok any good (post i) w (saidBy m i)) →
      (m.go i p).Fine any good post := by
    intro p hp
    refine ⟨h.attrs, fun j => ?_⟩
    obtain ⟨w, h1, h2⟩ := h.threads j
    refine ⟨w, h1, ?_⟩
    simp only [Sharing.go]
    split
    · next hj => subst hj; exact hp w h1 h2
    · exact h2
  obtain ⟨w, h1, h2⟩ := h.threads i
  unfold Sharing.step
  cases hp : m.threads i with
  | done r => exact h
  | print e k =>
    refine ⟨h.attrs, fun j => ?_⟩
    simp only [Sharing.go]
    by_cases hj : j = i
    · subst hj
      refine ⟨w, h1, ?_⟩
      rw [hp] at h2
      simp only [if_true]
      rw [saidBy_same]
      exact h2
    · obtain ⟨w', h3, h4⟩ := h.threads j
      refine ⟨w', h3, ?_⟩
      simp only [if_neg hj]
      rw [saidBy_other hj]
      exact h4
  | getIdent k => exact same _ fun w h1 h2 => by rw [hp] at h2; exact h2 _ h.attrs.ident h1.ident
  | getRaw k => exact same _ fun w h1 h2 => by rw [hp] at h2; exact h2 _ h.attrs.raw h1.raw
  | getCont k => exact same _ fun w h1 h2 => by rw [hp] at h2; exact h2 _ h.attrs.cont h1.cont
  | getFields k => exact same _ fun w h1 h2 => by rw [hp] at h2; exact h2 _ h.attrs.fields h1.fields
  | getDef k => exact same _ fun w h1 h2 => by rw [hp] at h2; exact h2 _ h.attrs.defn h1.defn
  | setIdent v k =>
    rw [hp] at h2
    refine ⟨⟨hi _ h2.1, h.attrs.raw, h.attrs.cont, h.attrs.fields, h.attrs.defn⟩, fun j => ?_⟩
    simp only [Sharing.go]
    by_cases hj : j = i
    · subst hj
      exact ⟨{ w with ident := True }, ⟨fun _ => h2.1, h1.raw, h1.cont, h1.fields, h1.defn⟩, by
        rw [if_pos rfl]; exact h2.2⟩
    · obtain ⟨w', h3, h4⟩ := h.threads j
      exact ⟨w', ⟨fun _ => h2.1, h3.raw, h3.cont, h3.fields, h3.defn⟩, by rw [if_neg hj]; exact h4⟩
  | setRaw v k =>
    rw [hp] at h2
    refine ⟨⟨h.attrs.ident, hr _ h2.1, h.attrs.cont, h.attrs.fields, h.attrs.defn⟩, fun j => ?_⟩
    simp only [Sharing.go]
    by_cases hj : j = i
    · subst hj
      exact ⟨{ w with raw := True }, ⟨h1.ident, fun _ => h2.1, h1.cont, h1.fields, h1.defn⟩, by
        rw [if_pos rfl]; exact h2.2⟩
    · obtain ⟨w', h3, h4⟩ := h.threads j
      exact ⟨w', ⟨h3.ident, fun _ => h2.1, h3.cont, h3.fields, h3.defn⟩, by rw [if_neg hj]; exact h4⟩
  | setCont v k =>
    rw [hp] at h2
    refine ⟨⟨h.attrs.ident, h.attrs.raw, hc _ h2.1, h.attrs.fields, h.attrs.defn⟩, fun j => ?_⟩
    simp only [Sharing.go]
    by_cases hj : j = i
    · subst hj
      exact ⟨{ w with cont := True }, ⟨h1.ident, h1.raw, fun _ => h2.1, h1.fields, h1.defn⟩, by
        rw [if_pos rfl]; exact h2.2⟩
    · obtain ⟨w', h3, h4⟩ := h.threads j
      exact ⟨w', ⟨h3.ident, h3.raw, fun _ => h2.1, h3.fields, h3.defn⟩, by rw [if_neg hj]; exact h4⟩
  | setFields v k =>
    rw [hp] at h2
    refine ⟨⟨h.attrs.ident, h.attrs.raw, h.attrs.cont, hf _ h2.1, h.attrs.defn⟩, fun j => ?_⟩
    simp only [Sharing.go]
    by_cases hj : j = i
    · subst hj
      exact ⟨{ w with fields := True }, ⟨h1.ident, h1.raw, h1.cont, fun _ => h2.1, h1.defn⟩, by
        rw [if_pos rfl]; exact h2.2⟩
    · obtain ⟨w', h3, h4⟩ := h.threads j
      exact ⟨w', ⟨h3.ident, h3.raw, h3.cont, fun _ => h2.1, h3.defn⟩, by rw [if_neg hj]; exact h4⟩
  | setDef v k =>
    rw [hp] at h2
    refine ⟨⟨h.attrs.ident, h.attrs.raw, h.attrs.cont, h.attrs.fields, hd _ h2.1⟩, fun j => ?_⟩
    simp only [Sharing.go]
    by_cases hj : j = i
    · subst hj
      exact ⟨{ w with defn := True }, ⟨h1.ident, h1.raw, h1.cont, h1.fields, fun _ => h2.1⟩, by
        rw [if_pos rfl]; exact h2.2⟩
    · obtain ⟨w', h3, h4⟩ := h.threads j
      exact ⟨w', ⟨h3.ident, h3.raw, h3.cont, h3.fields, fun _ => h2.1⟩, by rw [if_neg hj]; exact h4⟩

/-- the values an attribute has before and those it may be given -/
def View.orInit (good : View) (r : Record) : View where
  ident v := v = r.ident ∨ good.ident v
  raw v := v = r.raw ∨ good.raw v
  cont v := v = r.continuation ∨ good.cont v
  fields v := v = r.fields ∨ good.fields v
  defn v := v = r.definition ∨ good.defn v

theorem Sharing.Fine.run {good : View} {post : Nat → Flags → List Event → Result → Prop} {m : Sharing} {r : Record}
    (h : m.Fine (good.orInit r) good post) (schedule : List Nat) :
    (m.run schedule).Fine (good.orInit r) good post := by
  induction schedule generalizing m with
  | nil => exact h
  | cons i is ih =>
    exact ih (h.step (fun _ => .inr) (fun _ => .inr) (fun _ => .inr) (fun _ => .inr) (fun _ => .inr) i)

theorem Sharing.fine_start [PyUnicode] {good : View} {post : Nat → Flags → List Event → Result → Prop} {r : Record}
    {calls : Nat → Call} {w : Flags} (hw : w.Holds good r)
    (h : ∀ i, ((calls i).prog).Ok (good.orInit r) good (post i) w []) :
    (Sharing.start r calls).Fine (good.orInit r) good post :=
  ⟨⟨.inl rfl, .inl rfl, .inl rfl, .inl rfl, .inl rfl⟩, fun i => ⟨w, hw, h i⟩⟩

/-- no flag -/
def Flags.none : Flags := ⟨False, False, False, False, False⟩

theorem Flags.none_holds (good : View) (r : Record) : Flags.none.Holds good r :=
  ⟨False.elim, False.elim, False.elim, False.elim, False.elim⟩

end Arinc
