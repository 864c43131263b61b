import Verif.Spec.Damage
import Verif.Props.Hidden
import Verif.Props.Codes
import Verif.Props.EndToEnd
import Verif.Props.Decode
import Verif.Lemmas.Process
/-!
# C111: a damaged character
-/
namespace Arinc
open Py Spec Spec.Std

theorem pick_damaged {J : Nat → Prop} {line line' : Str} (h : Damaged J line line') {cs : List Nat}
    (hc : ∀ i ∈ cs, ¬ J i) : pick line' cs = pick line cs := by
  induction cs with
  | nil => rfl
  | cons a cs ih =>
    have : pick line' (a :: cs) = col line' a ++ pick line' cs := rfl
    rw [this, ih fun i hi => hc i (by simp [hi])]
    show line'[a]?.toList ++ _ = _
    rw [h.2 a (hc a (by simp))]
    rfl

theorem cols46 (t : Str) : cols t 4 6 = pick t [4, 5] := by
  simp only [cols, pick, col, List.flatMap_cons, List.flatMap_nil, List.append_nil]
  rcases t with _ | ⟨a, _ | ⟨b, _ | ⟨c, _ | ⟨d, _ | ⟨e, _ | ⟨f, t⟩⟩⟩⟩⟩⟩ <;> simp

theorem primary_layout : kindsOf.all (fun e => !e.2.1 || e.1 = py!"EU" || e.2.2.1.isEmpty) = true := by decide +kernel

/-- the fields of primary records do not depend on the column of the application type -/
theorem fieldsOf_primary {k : Str} (hk : k ≠ py!"EU") (a b : Str) : fieldsOf k true a = fieldsOf k true b := by
  unfold fieldsOf
  cases h : kindsOf.find? (fun e => e.1 = k && e.2.1 = true) with
  | none => rfl
  | some e =>
    have h1 := List.all_eq_true.1 primary_layout e (List.mem_of_find?_eq_some h)
    have h2 := List.find?_some h
    simp only [Bool.and_eq_true, decide_eq_true_eq] at h2
    rw [h2.1, h2.2] at h1
    simp only [hk, Bool.not_true, Bool.false_or, decide_false, List.isEmpty_iff] at h1
    simp only [h1, List.lookup_nil]

theorem contColumn_lt {k : Str} {i : Nat} (h : contColumn k = some i) : i < 123 := by
  unfold contColumn at h
  repeat' split at h
  all_goals first | (cases h; done) | (cases h; decide)

section
variable [PyUnicode]

theorem damaged_isLine {before line line' t k : Str} {fs : List StdField} (h : IsLine before line t k fs)
    (hl : NoLeadingSpace line) {J : Nat → Prop} (hd : Damaged J line line')
    (hJ : ∀ i, J i → ¬ Deciding line k (isPrimary before t k) i) :
    ∃ t', IsLine before line' t' k fs ∧ isPrimary before t' k = isPrimary before t k := by
  obtain ⟨pre, post, e, hpre, hpost⟩ := h.padded
  have hpre0 : pre = [] := by
    cases pre with
    | nil => rfl
    | cons c pre =>
      have := hl c (by rw [e]; rfl)
      rw [hpre c (by simp)] at this
      cases this
  subst hpre0
  rw [List.nil_append] at e
  have hn : ∀ i, Deciding line k (isPrimary before t k) i → ¬ J i := fun i hi hj => hJ i hj hi
  have hlen := h.shape.length
  have hll : line.length = 132 + post.length := by rw [e, List.length_append, hlen]
  have hge : 132 ≤ line'.length := by rw [hd.1, hll]; omega
  -- the columns of the new record
  have hcol : ∀ i, i < 132 → ¬ J i → (line'.take 132)[i]? = t[i]? := by
    intro i hi hj
    rw [List.getElem?_take_of_lt hi, hd.2 i hj, e, List.getElem?_append_left (by omega)]
  have hlen' : (line'.take 132).length = 132 := by rw [List.length_take]; omega
  have hpost' : line'.drop 132 = post := by
    refine List.ext_getElem? fun i => ?_
    rw [List.getElem?_drop, hd.2 _ (hn _ (by unfold Deciding; omega)), e, List.getElem?_append_right (by omega)]
    congr 1; omega
  have hsec : Resolves line' k := by
    have h46 : cols line' 4 6 = cols line 4 6 := by
      rw [cols46, cols46]
      refine pick_damaged hd fun i hi => hn i ?_
      simp at hi; unfold Deciding; omega
    have h4 : col line' 4 = col line 4 := by
      unfold col; rw [hd.2 4 (hn 4 (by unfold Deciding; omega))]
    have hs := h.section_
    cases hs with
    | byPair hp => rw [← h46] at hp ⊢; exact .byPair hp
    | bySplit h1 h2 =>
      have h12 : col line' 12 = col line 12 := by
        unfold col; rw [hd.2 12 (hn 12 (by unfold Deciding; exact .inr (.inr (.inr (.inl ⟨rfl, h1⟩)))))]
      rw [← h46] at h1
      rw [← h4, ← h12] at h2 ⊢
      exact .bySplit h1 h2
  have hcont : ∀ i, contColumn k = some i → col (line'.take 132) i = col t i := by
    intro i hi
    have := contColumn_lt hi
    unfold col
    rw [hcol i (by omega) (hn i (.inr (.inr (.inr (.inr (.inl hi))))))]
  have hprim : isPrimary before (line'.take 132) k = isPrimary before t k := by
    unfold isPrimary
    cases hc : contColumn k with
    | none => rfl
    | some i => simp only; rw [hcont i hc]
  refine ⟨line'.take 132, ⟨?_, ?_, hsec, ?_, ?_, h.listed⟩, hprim⟩
  · exact ⟨[], post, by rw [List.nil_append, ← hpost', List.take_append_drop], (fun c hc => by cases hc), hpost⟩
  · refine ⟨hlen', ?_, ?_⟩
    · have h0 := hcol 0 (by omega) (hn 0 (.inl rfl))
      have := h.shape.first
      rw [List.head?_eq_getElem?] at this ⊢
      rw [h0]; exact this
    · intro c hc
      obtain ⟨i, hi⟩ := List.getElem?_of_mem hc
      rw [List.getElem?_drop] at hi
      have hlt : 123 + i < 132 := Nat.lt_of_not_le fun hge => by
        rw [List.getElem?_eq_none (by omega)] at hi
        cases hi
      rw [hcol _ hlt (hn _ (by unfold Deciding; omega))] at hi
      refine h.shape.tail c ?_
      rw [← List.getElem?_drop] at hi
      exact List.mem_of_getElem? hi
  · intro i hi
    rw [hcont i hi]
    exact h.continuation i hi
  · rw [hprim, h.fields]
    by_cases ha : isPrimary before t k = false ∨ k = py!"EU"
    · rw [pick_damaged hd fun i hi => hn i (.inr (.inr (.inr (.inr (.inr (.inl ⟨hi, ha⟩))))))]
    · have h1 : isPrimary before t k = true := by
        cases hb : isPrimary before t k with
        | true => rfl
        | false => exact absurd (.inl hb) ha
      rw [h1]
      exact fieldsOf_primary (fun e => ha (.inr e)) _ _

/-- C111: If a line that is read is damaged in columns that do not decide what it is, it is still read, as a record of the
    same section with the same list of fields; and the fields that contain none of the damaged columns have the same values.
    (What is in the object before does not matter.) -/
theorem C111_read {r : Record} {line line' : Str} (h : (r.read line).res = .ok true) (hl : NoLeadingSpace line)
    {J : Nat → Prop} (hd : Damaged J line line')
    (hJ : ∀ i, J i → ¬ Deciding line (r.read line).obj.ident (r.read line).obj.primary i) :
    (r.read line').res = .ok true ∧ (r.read line').out = [] ∧
    (r.read line').obj.ident = (r.read line).obj.ident ∧ (r.read line').obj.primary = (r.read line).obj.primary ∧
    ∃ fs, fs = fieldsOf (r.read line).obj.ident (r.read line).obj.primary
        (pick line (appColumns (r.read line).obj.ident)) ∧
      (r.read line).obj.fields = fs.map (fun f => ⟨f.name, pick line f.shown.1, f.shown.2⟩) ∧
      (r.read line').obj.fields = fs.map (fun f => ⟨f.name, pick line' f.shown.1, f.shown.2⟩) ∧
      ∀ f ∈ fs, (∀ i ∈ f.shown.1, ¬ J i) → pick line' f.shown.1 = pick line f.shown.1 := by
  obtain ⟨t, k, fs, hi⟩ := read_isLine h
  obtain ⟨_, h2, h3, h4, _⟩ := C75_read hi
  rw [h2, h3] at hJ ⊢
  obtain ⟨t', hi', hp⟩ := damaged_isLine hi hl hd hJ
  obtain ⟨_, g2, g3, g4, g5⟩ := C75_read hi'
  exact ⟨(C75_accepted_iff r line').2 ⟨_, _, _, hi'⟩, g5, g2, by rw [g3, hp], fs, hi.fields, h4, g4,
    fun f _ hf => pick_damaged hd hf⟩

/-- C111: If both can be shown, the rows of the fields that contain none of the damaged columns are the same. -/
theorem C111_rows {r : Record} {line line' : Str} (h : (r.read line).res = .ok true) (hl : NoLeadingSpace line)
    {J : Nat → Prop} (hd : Damaged J line line')
    (hJ : ∀ i, J i → ¬ Deciding line (r.read line).obj.ident (r.read line).obj.primary i) (output : Bool)
    {legs legs' : Legs} (hg : Grown legs) (hg' : Grown legs') {rows rows' : List Row}
    (hr : ((r.read line).obj.decode output legs).res = .ok rows)
    (hr' : ((r.read line').obj.decode output legs').res = .ok rows') :
    rows'.length = rows.length ∧ ∀ (n : Nat) (f : StdField),
      (fieldsOf (r.read line).obj.ident (r.read line).obj.primary
        (pick line (appColumns (r.read line).obj.ident)))[n]? = some f →
      (∀ i ∈ f.shown.1, ¬ J i) → ∃ row, rows[n]? = some row ∧ rows'[n]? = some row := by
  obtain ⟨_, _, e1, _, fs, rfl, f1, f2, f3⟩ := C111_read h hl hd hJ
  obtain ⟨a1, a2, _⟩ := C19_table _ output legs hg rows hr
  obtain ⟨b1, b2, _⟩ := C19_table _ output legs' hg' rows' hr'
  refine ⟨by rw [a1, b1, f1, f2, List.length_map, List.length_map], fun n f hn hf => ?_⟩
  obtain ⟨v, hv, hrow⟩ := a2 n ⟨f.name, pick line f.shown.1, f.shown.2⟩ (by rw [f1, List.getElem?_map, hn]; rfl)
  obtain ⟨v', hv', hrow'⟩ := b2 n ⟨f.name, pick line' f.shown.1, f.shown.2⟩ (by rw [f2, List.getElem?_map, hn]; rfl)
  have hp := f3 f (List.mem_of_getElem? hn) hf
  simp only [hp] at hv' hrow'
  rw [(C55_value f.shown.2 _ _ (r.read line).obj.info legTypeDesc fun _ => e1).1, hv] at hv'
  cases hv'
  exact ⟨_, hrow, hrow'⟩

/-- C111: And a record that could be shown can still be shown, unless one of the fields that contain damaged columns is
    refused. -/
theorem C111_shown {r : Record} {line line' : Str} (h : (r.read line).res = .ok true) (hl : NoLeadingSpace line)
    {J : Nat → Prop} (hd : Damaged J line line')
    (hJ : ∀ i, J i → ¬ Deciding line (r.read line).obj.ident (r.read line).obj.primary i) (output : Bool)
    {legs legs' : Legs} (hg : Grown legs) (hg' : Grown legs') {rows : List Row}
    (hr : ((r.read line).obj.decode output legs).res = .ok rows) :
    (∃ rows', ((r.read line').obj.decode output legs').res = .ok rows') ↔
      ∀ f ∈ fieldsOf (r.read line).obj.ident (r.read line).obj.primary
          (pick line (appColumns (r.read line).obj.ident)),
        (∃ i ∈ f.shown.1, J i) →
          ∃ v, (runDec f.shown.2 (pick line' f.shown.1) (r.read line').obj.info legTypeDesc).res = .ok v := by
  obtain ⟨_, _, e1, _, fs, rfl, f1, f2, f3⟩ := C111_read h hl hd hJ
  have hall := (C19_returns_iff _ output legs hg).1 ⟨rows, hr⟩
  rw [C19_returns_iff _ output legs' hg', f2]
  rw [f1] at hall
  constructor
  · intro hh f hf _
    exact hh _ (List.mem_map.2 ⟨f, hf, rfl⟩)
  · intro hh f' hf'
    obtain ⟨f, hf, rfl⟩ := List.mem_map.1 hf'
    by_cases hx : ∃ i ∈ f.shown.1, J i
    · exact hh f hf hx
    · have hp := f3 f hf fun i hi hj => hx ⟨i, hi, hj⟩
      obtain ⟨v, hv⟩ := hall _ (List.mem_map.2 ⟨f, hf, rfl⟩)
      simp only at hv ⊢
      rw [hp, (C55_value f.shown.2 _ _ (r.read line).obj.info legTypeDesc fun _ => e1).1]
      exact ⟨v, hv⟩

end

section
attribute [local instance] Py.Tables.cpython311

/-- one character replaced -/
theorem damaged_set (line : Str) (i c : Nat) : Damaged (· = i) line (line.set i c) :=
  ⟨List.length_set, fun j hj => List.getElem?_set_ne fun h => hj h.symm⟩

/-- a digit of the frequency has become a letter -/
theorem Sample.damagedVhf : Damaged (· = 24) Sample.vhf Sample.vhfBadFreq := damaged_set Sample.vhf 24 79

theorem Sample.vhf_notDeciding : ∀ i, i = 24 →
    ¬ Deciding Sample.vhf (Record.new.read Sample.vhf).obj.ident (Record.new.read Sample.vhf).obj.primary i := by
  have hk : (Record.new.read Sample.vhf).obj.ident = py!"D " := by decide +kernel
  have hp : (Record.new.read Sample.vhf).obj.primary = true := by decide +kernel
  rintro i rfl
  rw [hk, hp]
  rintro (h | h | h | ⟨h, -⟩ | h | ⟨-, h | h⟩ | h)
  · cases h
  · cases h
  · cases h
  · cases h
  · exact absurd h (by decide +kernel)
  · cases h
  · exact absurd h (by decide +kernel)
  · exact absurd h (by decide)

/-- the damaged line is read, with the same fields except the frequency; it cannot be shown, because of the frequency -/
example : (Record.new.read Sample.vhfBadFreq).res = .ok true ∧
    (Record.new.read Sample.vhfBadFreq).obj.ident = py!"D " ∧
    (∃ rows, ((Record.new.read Sample.vhf).obj.decode false legTypeDesc).res = .ok rows) ∧
    ¬ ∃ rows, ((Record.new.read Sample.vhfBadFreq).obj.decode false legTypeDesc).res = .ok rows := by
  have h := C111_read (r := Record.new) (by decide +kernel) (fun c hc => by cases hc; decide +kernel) Sample.damagedVhf Sample.vhf_notDeciding
  refine ⟨h.1, h.2.2.1.trans (by decide +kernel), ?_, ?_⟩
  · have : ((Record.new.read Sample.vhf).obj.decode false legTypeDesc).res.toBool = true := by decide +kernel
    cases hr : ((Record.new.read Sample.vhf).obj.decode false legTypeDesc).res with
    | ok rows => exact ⟨rows, rfl⟩
    | error e => rw [hr] at this; cases this
  · rintro ⟨rows, hr⟩
    have : ((Record.new.read Sample.vhfBadFreq).obj.decode false legTypeDesc).res.toBool = false := by decide +kernel
    rw [hr] at this
    cases this

/-- with another digit there it can be shown, and all rows but that of the frequency are the same (that one is not) -/
example : ∃ rows rows', ((Record.new.read Sample.vhf).obj.decode false legTypeDesc).res = .ok rows ∧
    ((Record.new.read (Sample.vhf.set 24 57)).obj.decode false legTypeDesc).res = .ok rows' ∧
    rows'.length = rows.length ∧ rows ≠ rows' := by
  have hd := damaged_set Sample.vhf 24 57
  have h0 : (Record.new.read Sample.vhf).res = .ok true := by decide +kernel
  have hl : NoLeadingSpace Sample.vhf := fun c hc => by cases hc; decide +kernel
  have hok : ∀ {x : Except Exc (List Row)}, x.toBool = true → ∃ rows, x = .ok rows := by
    intro x hx
    cases x with
    | ok rows => exact ⟨rows, rfl⟩
    | error e => cases hx
  obtain ⟨rows, hr⟩ := hok (x := ((Record.new.read Sample.vhf).obj.decode false legTypeDesc).res) (by decide +kernel)
  obtain ⟨rows', hr'⟩ := hok (x := ((Record.new.read (Sample.vhf.set 24 57)).obj.decode false legTypeDesc).res)
    (by decide +kernel)
  refine ⟨rows, rows', hr, hr', (C111_rows h0 hl hd Sample.vhf_notDeciding false grown_init grown_init hr hr').1, ?_⟩
  rintro rfl
  rw [← hr] at hr'
  exact absurd hr' (by decide +kernel)

/-- and a column that decides does matter: with another character in the subsection the line is of another section, with
    another in the continuation number it is read as another kind of record, and with another at the end it is not read -/
example : (Record.new.read (Sample.vhf.set 5 66)).obj.ident = py!"DB" ∧
    (Record.new.read (Sample.airport.set 21 50)).obj.primary = false ∧
    (Record.new.read (Sample.airport.set 131 65)).res = .ok false := by decide +kernel

end
end Arinc
