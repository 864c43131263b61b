import Verif.Lemmas.Registry
import Verif.Props.Samples
/-!
# C105: programs that use the table of record types
-/
namespace Arinc
open Py Spec

section
variable [PyUnicode]

/-- C105: What a program does to the entries of some sections, by assigning, removing or looking up unknown ones, has
    no effect on calls that read no records of these sections; asking for entries, and looking up the sections the
    library supports, has no effect at all. -/
theorem C105_apart {as : List RegUse} (h : Apart [] as) : (World.init.uses as).2 = outcomes (callsOf as) :=
  uses_same (w := World.init) (before := []) (fun _ _ => rfl) h

/-- C105: a section whose entry was removed, or never looked up, is unknown: the line is not read. -/
theorem C105_removed {line : Str} {as : List RegUse} (hl : ∀ key, Names line key → RegUse.remove key ∈ as)
    (ha : ∀ a ∈ as, ∃ key, a = .remove key) (output : Bool) :
    (World.init.uses (as ++ [.call (.parse line output)])).2 = [.parse (.ok false) []] := by
  have key : ∀ (as : List RegUse) (w : World), (∀ a ∈ as, ∃ key, a = .remove key) →
      (∀ key, Names line key → RegUse.remove key ∈ as ∨ w.reg.lookup key = none) →
      (w.uses (as ++ [.call (.parse line output)])).2 = [.parse (.ok false) []] := by
    intro as
    induction as with
    | nil =>
      intro w _ h
      simp only [List.nil_append, World.uses, World.step]
      have h1 := (h (slice line 4 6) (Or.inl (by rw [slice_eq_cols]))).resolve_left (by simp)
      have h2 := (h (col line 4 ++ col line 12) (Or.inr rfl)).resolve_left (by simp)
      have hr : (Record.new.readG w.reg line).2.res = .ok false ∧ (Record.new.readG w.reg line).2.out = [] := by
        unfold Record.readG
        split
        · exact ⟨rfl, rfl⟩
        · next hv =>
          have hv : validate line = true := by simpa using hv
          simp only [pair_eval (length_line (validate_iff_isRecord.1 hv)), Reg.has, h1, h2, Option.isSome_none,
            Bool.false_eq_true, if_false, and_self]
      unfold World.parse
      simp only [hr.1, hr.2]
    | cons a as ih =>
      intro w ha h
      obtain ⟨k, rfl⟩ := ha a (by simp)
      simp only [List.cons_append, World.uses]
      refine ih _ (fun a h => ha a (by simp [h])) fun key hk => ?_
      by_cases e : key = k
      · right
        subst e
        simp only [Reg.act]
        rw [List.lookup_eq_none_iff]
        intro p hp
        have := (List.mem_filter.1 hp).2
        simp only [bne_iff_ne, ne_eq] at this
        simpa using fun e => this e.symm
      · rcases h key hk with h | h
        · rcases List.mem_cons.1 h with h | h
          · exact absurd (by cases h; rfl) e
          · exact Or.inl h
        · right
          simp only [Reg.act]
          rw [lookup_remove _ e]
          exact h
  exact key as World.init ha fun k hk => Or.inl (hl k hk)

/-- C105: a record type that a program adds is used: for a simple one, without continuation records, `read` accepts
    every line of record shape that names it in columns 5 and 6, and its fields are the columns of the line. -/
theorem C105_added {line key : Str} {d : Definition} {l : Layout} (hw : WellShaped line) (hk : cols line 4 6 = key)
    (hc : d.contIdx = none) (hp : d.onCont = .always l) (hb : ∀ s ∈ l, ∀ c ∈ s.slice.columns, c < 132)
    (hs : ∀ s ∈ l, ∀ lo hi, s.slice = .range lo hi → lo < hi) (hl : l ≠ []) (i : Nat) :
    let x := World.init.uses [.assign key d, .call (.new i), .call (.read i line)]
    x.2 = [.none, .read (.ok true) []] ∧
      (x.1.objs i).fields = l.map fun s => ⟨s.name, pick line s.slice.columns, s.dec⟩ := by
  have hv := validate_iff.2 hw
  have hlen := length_line (validate_iff_isRecord.1 hv)
  have hin : Layout.inBounds l = true := by
    refine List.all_eq_true.2 fun s hs' => ?_
    have h1 := hb s hs'
    have h2 := hs s hs'
    cases hsl : s.slice with
    | «at» j => rw [hsl] at h1; simpa [Slice.inBounds] using h1 j (by simp [Slice.columns])
    | range lo hi =>
      have h2 := h2 lo hi hsl
      rw [hsl] at h1
      have := h1 (hi - 1) (by simp [Slice.columns]; omega)
      simp only [Slice.inBounds, Bool.and_eq_true, decide_eq_true_eq]
      omega
    | pair a b =>
      rw [hsl] at h1
      simp only [Slice.inBounds, Bool.and_eq_true, decide_eq_true_eq]
      exact ⟨h1 a (by simp [Slice.columns]), h1 b (by simp [Slice.columns])⟩
  have hr := readLayout_ok hin hlen
  have hd : (initReg.put key d).lookup key = some (some d) := by rw [lookup_put, if_pos rfl]
  have hread : ∀ g : Reg, g.lookup key = some (some d) → (Record.new.readG g line).2 =
      ⟨.ok true, ⟨key, strip line, [], l.map (FieldSpec.field line), some d⟩, []⟩ := by
    intro g hd
    unfold Record.readG
    rw [if_neg (by rw [hv]; simp)]
    simp only [pair_eval hlen, slice_eq_cols, hk, Reg.has, hd, Option.isSome_some, if_true]
    simp only [Record.readDefinitionG, Reg.get, hd, Record.readWith, hc, Record.readFields, Definition.read,
      Record.primary, Record.new]
    have e1 : ([] == ([48] : Str)) = false := rfl
    have e2 : ([] == ([49] : Str)) = false := rfl
    simp only [e1, e2, Bool.or_false, Bool.false_eq_true, if_false, hp, Branch.run, hr]
    have : (l.map (FieldSpec.field line)).isEmpty = false := by
      cases l with
      | nil => exact absurd rfl hl
      | cons s l => rfl
    simp only [this, Bool.false_eq_true, if_false]
  simp only [World.uses, World.step, World.set, World.init, Reg.act, if_true]
  generalize initReg.put key d = g at hd
  simp only [hread g hd]
  exact ⟨trivial, rfl⟩

/-- C105: Looking up an unknown section with `records[key]` is not harmless: from then on `parse` raises
    AttributeError for lines that have `key` in columns 5 and 6, even if columns 5 and 13 give a supported section, and
    for lines that have it in columns 5 and 13 and no supported section in columns 5 and 6. -/
theorem C105_looked_up {line key : Str} (hw : WellShaped line) (hs : key ∉ supported)
    (hk : cols line 4 6 = key ∨ (cols line 4 6 ∉ supported ∧ col line 4 ++ col line 12 = key)) (output : Bool) :
    (World.init.uses [.lookup key, .call (.parse line output)]).2 = [.parse (.error .attributeError) []] := by
  have hv := validate_iff.2 hw
  have hlen := length_line (validate_iff_isRecord.1 hv)
  have hn : initReg.lookup key = none := by
    rw [lookup_initReg]
    have : inRegistry key = false := by
      rw [← Bool.not_eq_true, inRegistry_iff]; exact hs
    unfold inRegistry at this
    cases h : registry.lookup key with
    | none => rfl
    | some d => rw [h] at this; cases this
  have hg : (initReg.get key).2.lookup key = some none := by
    simp [Reg.get, hn, lookup_append]
  have hh : cols line 4 6 ≠ key → cols line 4 6 ∉ supported → Reg.has (initReg.get key).2 (cols line 4 6) = false := by
    intro e h1
    unfold Reg.has
    rw [lookup_get _ _ _ e, ← Reg.has, has_initReg, ← Bool.not_eq_true, inRegistry_iff]
    exact h1
  simp only [World.uses, World.step, World.init, Reg.act]
  generalize (initReg.get key).2 = g at hg hh
  have hread : ((Record.new.readG g line).2.res = .error .attributeError) ∧ (Record.new.readG g line).2.out = [] := by
    unfold Record.readG
    rw [if_neg (by rw [hv]; simp)]
    simp only [pair_eval hlen, slice_eq_cols]
    by_cases e : cols line 4 6 = key
    · simp only [e, Reg.has, hg, Option.isSome_some, if_true, Record.readDefinitionG, Reg.get, and_self]
    · obtain ⟨h1, hk⟩ := hk.resolve_left e
      simp only [hh e h1, Bool.false_eq_true, if_false, hk]
      simp only [Reg.has, hg, Option.isSome_some, if_true, Record.readDefinitionG, Reg.get, and_self]
  unfold World.parse
  simp only [hread.1, hread.2]

end

section
attribute [local instance] Py.Tables.cpython311

/-- C105: So that looking into the table changes nothing is false: after `records['P ']` an airport cannot be read. -/
theorem C105_refuted :
    (World.init.uses [.call (.parse Sample.airport false), .lookup (py!"P "), .call (.parse Sample.airport false)]).2 =
      [.parse (.ok true) [], .parse (.error .attributeError) []] := by
  decide +kernel

/-! ## Examples -/

/-- the other records can -/
example : Apart [] [.lookup (py!"P "), .lookup (py!"PA"), .ask (py!"XX"), .call (.parse Sample.vhf true)] := by
  refine ⟨fun key hk => ?_, trivial⟩
  have : key = py!"P " := by simpa [touched, supported] using hk
  subst this
  rintro ⟨l, h, _, hn⟩
  cases h
  revert hn
  unfold Names
  decide +kernel

/-- a new type of record -/
def extra : Definition :=
  ⟨py!"Extra", some (py!"Extra"), none, none, none, none, .always [], .always [⟨py!"Name", .range 6 10, .f003⟩]⟩

example : (World.init.uses [.assign (py!"XX") extra,
    .call (.read 0 (Sample.vhf.set 4 88 |>.set 5 88)), .call (.json 0 false true)]).2 =
    [.read (.ok true) [], .json (py!"{\"Name\": \"    \"}") []] := by decide +kernel

/-- the hypotheses of `C105_looked_up` -/
example : validate (Sample.vhf.set 4 88 |>.set 5 88) = true ∧ cols (Sample.vhf.set 4 88 |>.set 5 88) 4 6 = py!"XX" ∧
    py!"XX" ∉ supported := by decide +kernel

end
end Arinc
