import Verif.Spec.Args
import Verif.Props.Fates
/-!
# C92: filters of any type
-/
namespace Arinc
open Py Spec Spec.Std

section
variable [PyUnicode]

/-- the verdict as `FilterArg.keep` returns it -/
def Judgement.value : Judgement → Except SearchExc Bool
  | .yes => .ok true
  | .no => .ok false
  | .typeError => .error .typeError

omit [PyUnicode] in
theorem tried_allIn (t : Str) (xs : List Elem) : ∃ v, Tried t xs v ∧ allIn t xs = Judgement.value v := by
  induction xs with
  | nil => exact ⟨.yes, .all, rfl⟩
  | cons x xs ih =>
    cases x with
    | obj => exact ⟨.typeError, .obj, rfl⟩
    | str s =>
      by_cases hs : s <:+: t
      · obtain ⟨v, hv, he⟩ := ih
        exact ⟨v, .next hs hv, by rw [allIn, if_pos (contains_iff.2 hs), he]⟩
      · exact ⟨.no, .absent hs, by rw [allIn, if_neg (fun h => hs (contains_iff.1 h))]; rfl⟩

omit [PyUnicode] in
theorem says_keep (filters : FilterArg) (t : Str) :
    ∃ v, Says t filters v ∧ filters.keep t = Judgement.value v := by
  cases filters with
  | str s =>
    by_cases hs : s <:+: t
    · exact ⟨.yes, .occurs hs, by rw [FilterArg.keep, contains_iff.2 hs]; rfl⟩
    · refine ⟨.no, .absent hs, ?_⟩
      cases hc : contains s t with
      | true => exact absurd (contains_iff.1 hc) hs
      | false => simp only [FilterArg.keep, hc]; rfl
  | list xs => obtain ⟨v, hv, he⟩ := tried_allIn t xs; exact ⟨v, .list hv, he⟩
  | collection xs => exact ⟨.yes, .collection, rfl⟩
  | obj => exact ⟨.yes, .obj, rfl⟩

omit [PyUnicode] in
theorem tried_unique {t : Str} {xs : List Elem} {v w : Judgement} (h : Tried t xs v) (h' : Tried t xs w) : v = w := by
  induction h with
  | all => cases h'; rfl
  | next h _ ih =>
    cases h' with
    | next _ r => exact ih r
    | absent hn => exact absurd h hn
  | absent h =>
    cases h' with
    | next hn _ => exact absurd hn h
    | absent => rfl
  | obj => cases h'; rfl

omit [PyUnicode] in
theorem says_unique {t : Str} {f : FilterArg} {v w : Judgement} (h : Says t f v) (h' : Says t f w) : v = w := by
  cases h with
  | occurs h => cases h' with
    | occurs => rfl
    | absent hn => exact absurd h hn
  | absent h => cases h' with
    | occurs hn => exact absurd hn h
    | absent => rfl
  | list h => cases h' with
    | list h' => exact tried_unique h h'
  | collection => cases h'; rfl
  | obj => cases h'; rfl

theorem argRun_lines (filters : FilterArg) (n : Nat) (ls : List Str) :
    ArgRun filters n ls (searchArgLines filters ls n).res (searchArgLines filters ls n).out
      (searchArgLines filters ls n).summary := by
  induction ls generalizing n with
  | nil => exact .done n
  | cons l ls ih =>
    obtain ⟨f, hf⟩ := fate_exists [] l
    have hf' : FateOf Record.new.continuation l f := hf
    obtain ⟨h1, h2, h3⟩ := fate_read hf'
    cases hq : f.returns with
    | error e =>
      cases hf with
      | refused h hh hk =>
        have : searchArgLines filters (l :: ls) n = ⟨.error (.exc .valueError), [], none⟩ := by
          simp only [searchArgLines, h1, h2, Fate.returns, Fate.prints]
        rw [this]
        exact .stop (.refused h hh hk)
      | _ => cases hq
    | ok b =>
      cases b with
      | false =>
        have : searchArgLines filters (l :: ls) n = (searchArgLines filters ls n).after f.prints := by
          simp only [searchArgLines, h1, h2, hq]
        rw [this]
        exact .skip hf hq (ih n)
      | true =>
        obtain ⟨t, k, fs, rfl, hline⟩ := fate_of_true hf hq
        have hraw : (Record.new.read l).obj.raw = t := congrArg (·.1) h3
        obtain ⟨v, hv, he⟩ := says_keep filters t
        cases v with
        | yes =>
          have : searchArgLines filters (l :: ls) n = (searchArgLines filters ls (n + 1)).after [.line t] := by
            simp only [searchArgLines, h1, h2, hq, hraw, he, Judgement.value, Fate.prints, List.nil_append]
          rw [this]
          exact .found hf hv (ih (n + 1))
        | no =>
          have : searchArgLines filters (l :: ls) n = (searchArgLines filters ls n).after [] := by
            simp only [searchArgLines, h1, h2, hq, hraw, he, Judgement.value, Fate.prints]
          rw [this]
          exact .other hf hv (ih n)
        | typeError =>
          have : searchArgLines filters (l :: ls) n = ⟨.error .typeError, [], none⟩ := by
            simp only [searchArgLines, h1, h2, hq, hraw, he, Judgement.value, Fate.prints]
          rw [this]
          exact .typeError hf hv

theorem argRun_unique {filters : FilterArg} {n : Nat} {ls : List Str} {r r' : Except SearchExc Unit}
    {o o' : List Event} {s s' : Option (Nat × Bool)}
    (h : ArgRun filters n ls r o s) (h' : ArgRun filters n ls r' o' s') : r = r' ∧ o = o' ∧ s = s' := by
  induction h generalizing r' o' s' with
  | done n => cases h'; exact ⟨rfl, rfl, rfl⟩
  | found h hm t ih =>
    cases h' with
    | found g gm u => cases fate_unique h g; obtain ⟨rfl, rfl, rfl⟩ := ih u; exact ⟨rfl, rfl, rfl⟩
    | other g gm u => cases fate_unique h g; cases says_unique hm gm
    | typeError g gm => cases fate_unique h g; cases says_unique hm gm
    | skip g gf u => cases fate_unique h g; cases gf
    | stop g => cases fate_unique h g
  | other h hm t ih =>
    cases h' with
    | found g gm u => cases fate_unique h g; cases says_unique hm gm
    | other g gm u => cases fate_unique h g; exact ih u
    | typeError g gm => cases fate_unique h g; cases says_unique hm gm
    | skip g gf u => cases fate_unique h g; cases gf
    | stop g => cases fate_unique h g
  | typeError h hm =>
    cases h' with
    | found g gm u => cases fate_unique h g; cases says_unique hm gm
    | other g gm u => cases fate_unique h g; cases says_unique hm gm
    | typeError g gm => exact ⟨rfl, rfl, rfl⟩
    | skip g gf u => cases fate_unique h g; cases gf
    | stop g => cases fate_unique h g
  | skip h hf t ih =>
    cases h' with
    | found g gm u => cases fate_unique h g; cases hf
    | other g gm u => cases fate_unique h g; cases hf
    | typeError g gm => cases fate_unique h g; cases hf
    | skip g gf u => cases fate_unique h g; obtain ⟨rfl, rfl, rfl⟩ := ih u; exact ⟨rfl, rfl, rfl⟩
    | stop g => cases fate_unique h g; cases hf
  | stop h =>
    cases h' with
    | found g gm u => cases fate_unique h g
    | other g gm u => cases fate_unique h g
    | typeError g gm => cases fate_unique h g
    | skip g gf u => cases fate_unique h g; cases gf
    | stop g => exact ⟨rfl, rfl, rfl⟩

theorem searchArgLines_chomped {rs ls : List Str} (h : Chomped rs ls) (filters : FilterArg) (n : Nat) :
    searchArgLines filters rs n = searchArgLines filters ls n := by
  induction rs generalizing ls n with
  | nil => cases ls with
    | nil => rfl
    | cons => cases h
  | cons r rs ih =>
    cases ls with
    | nil => cases h
    | cons l ls =>
      have hp : Record.new.read r = Record.new.read l := by
        rcases h.1 with h1 | h1
        · rw [h1]
        · rw [h1, read_lf]
      simp only [searchArgLines, hp, ih h.2]

/-- C92: with a `filters` argument of any type, `search` does exactly what the specification says: how it ends, what
    it prints, and whether and with which count it prints the summary. -/
theorem C92_search {s : Str} {ls : List Str} (hs : Lines s ls) (filters : FilterArg) (res : Except SearchExc Unit)
    (out : List Event) (sum : Option (Nat × Bool)) :
    searchArg (.text s) filters = ⟨res, out, sum⟩ ↔ ArgRun filters 0 ls res out sum := by
  have hp := argRun_lines filters 0 ls
  have he : searchArg (.text s) filters = searchArgLines filters ls 0 :=
    searchArgLines_chomped (lines_readlines hs) filters 0
  rw [← he] at hp
  refine ⟨fun h => ?_, fun h => ?_⟩
  · rw [h] at hp; exact hp
  · obtain ⟨h1, h2, h3⟩ := argRun_unique hp h
    rw [← h1, ← h2, ← h3]

omit [PyUnicode] in
theorem tried_proper {t : Str} {xs : List Elem} {v : Judgement} (h : Tried t xs v) (hx : ∀ x ∈ xs, ∃ s, x = .str s) :
    (v = .yes ∧ ∀ s, Elem.str s ∈ xs → s <:+: t) ∨ (v = .no ∧ ¬ ∀ s, Elem.str s ∈ xs → s <:+: t) := by
  induction h with
  | all => exact .inl ⟨rfl, fun _ h => nomatch h⟩
  | next h _ ih =>
    rcases ih fun x hm => hx x (.tail _ hm) with ⟨hv, ha⟩ | ⟨hv, ha⟩
    · refine .inl ⟨hv, fun s hm => ?_⟩
      cases hm with
      | head => exact h
      | tail _ hm => exact ha s hm
    · exact .inr ⟨hv, fun hh => ha fun s hm => hh s (.tail _ hm)⟩
  | absent h => exact .inr ⟨rfl, fun hh => h (hh _ (.head _))⟩
  | obj => obtain ⟨s, hs⟩ := hx _ (.head _); cases hs

omit [PyUnicode] in
theorem says_proper {t : Str} {f : FilterArg} {v : Judgement} (h : Says t f v) (hp : Proper f) :
    (v = .yes ∧ Wanted f t) ∨ (v = .no ∧ ¬ Wanted f t) := by
  cases h with
  | occurs h => exact .inl ⟨rfl, h⟩
  | absent h => exact .inr ⟨rfl, h⟩
  | list h => exact tried_proper h hp
  | collection => exact hp.elim
  | obj => exact hp.elim

theorem argRun_partial {filters : FilterArg} (hp : Proper filters) {n : Nat} {ls : List Str}
    {res : Except SearchExc Unit} {out : List Event} {sum : Option (Nat × Bool)}
    (h : ArgRun filters n ls res out sum) :
    res ≠ .error .typeError ∧
    (res = .ok () → ∀ l ∈ ls, ∀ t k fs, FateOf [] l (.record t k fs) → Wanted filters t → .line t ∈ out) ∧
    (∀ e ∈ out, (∃ l ∈ ls, ∃ t k fs, FateOf [] l (.record t k fs) ∧ Wanted filters t ∧ e = .line t) ∨
      ∃ l ∈ ls, ∃ f, FateOf [] l f ∧ f.returns = .ok false ∧ e ∈ f.prints) := by
  induction h with
  | done n => exact ⟨nofun, nofun, nofun⟩
  | @found n l ls t k fs res out sum h hv r ih =>
    obtain ⟨i1, i2, i3⟩ := ih
    have hw : Wanted filters t := by
      rcases says_proper hv hp with ⟨_, hw⟩ | ⟨hw, _⟩
      · exact hw
      · cases hw
    refine ⟨i1, fun hr l' hl t' k' fs' g w => ?_, fun e he => ?_⟩
    · cases hl with
      | head => cases fate_unique h g; exact .head _
      | tail _ hl => exact .tail _ (i2 hr l' hl t' k' fs' g w)
    · cases he with
      | head => exact .inl ⟨l, .head _, t, k, fs, h, hw, rfl⟩
      | tail _ he =>
        rcases i3 e he with ⟨l', hl, x⟩ | ⟨l', hl, x⟩
        · exact .inl ⟨l', .tail _ hl, x⟩
        · exact .inr ⟨l', .tail _ hl, x⟩
  | @other n l ls t k fs res out sum h hv r ih =>
    obtain ⟨i1, i2, i3⟩ := ih
    have hw : ¬ Wanted filters t := by
      rcases says_proper hv hp with ⟨hw, _⟩ | ⟨_, hw⟩
      · cases hw
      · exact hw
    refine ⟨i1, fun hr l' hl t' k' fs' g w => ?_, fun e he => ?_⟩
    · cases hl with
      | head => cases fate_unique h g; exact absurd w hw
      | tail _ hl => exact i2 hr l' hl t' k' fs' g w
    · rcases i3 e he with ⟨l', hl, x⟩ | ⟨l', hl, x⟩
      · exact .inl ⟨l', .tail _ hl, x⟩
      · exact .inr ⟨l', .tail _ hl, x⟩
  | typeError h hv =>
    rcases says_proper hv hp with ⟨hw, _⟩ | ⟨hw, _⟩ <;> cases hw
  | @skip n l ls f res out sum h hf r ih =>
    obtain ⟨i1, i2, i3⟩ := ih
    refine ⟨i1, fun hr l' hl t' k' fs' g w => ?_, fun e he => ?_⟩
    · cases hl with
      | head => cases fate_unique h g; cases hf
      | tail _ hl => exact List.mem_append_right _ (i2 hr l' hl t' k' fs' g w)
    · rcases List.mem_append.1 he with he | he
      · exact .inr ⟨l, .head _, f, h, hf, he⟩
      · rcases i3 e he with ⟨l', hl, x⟩ | ⟨l', hl, x⟩
        · exact .inl ⟨l', .tail _ hl, x⟩
        · exact .inr ⟨l', .tail _ hl, x⟩
  | stop h => exact ⟨nofun, nofun, nofun⟩

/-- C92, the part that holds: with a string or a list of strings, every record `search` prints contains the given
    substrings, a search that comes to its end has printed every such record, and there is no `TypeError`. What is
    missing: tuples, sets and other arguments (`C92_refuted`, `C92_ignored`). -/
theorem C92_proper_partial {s : Str} {ls : List Str} (hs : Lines s ls) {filters : FilterArg} (hp : Proper filters) :
    (searchArg (.text s) filters).res ≠ .error .typeError ∧
    ((searchArg (.text s) filters).res = .ok () →
      ∀ l ∈ ls, ∀ t k fs, FateOf [] l (.record t k fs) → Wanted filters t →
        .line t ∈ (searchArg (.text s) filters).out) ∧
    (∀ e ∈ (searchArg (.text s) filters).out,
      (∃ l ∈ ls, ∃ t k fs, FateOf [] l (.record t k fs) ∧ Wanted filters t ∧ e = .line t) ∨
      ∃ l ∈ ls, ∃ f, FateOf [] l f ∧ f.returns = .ok false ∧ e ∈ f.prints) :=
  argRun_partial hp ((C92_search hs filters _ _ _).1 rfl)

/-- C92: a tuple, a set or any other object that is neither a string nor a list is ignored: `search` does the same with
    it as with the empty string. -/
theorem C92_ignored (f : FileObj) (xs : List Elem) :
    searchArg f (.collection xs) = searchArg f (.str []) ∧ searchArg f .obj = searchArg f (.str []) := by
  have hc : ∀ t : Str, contains [] t = true := fun t => contains_iff.2 (List.nil_infix)
  have h1 : ∀ ls n, searchArgLines (.collection xs) ls n = searchArgLines (.str []) ls n := by
    intro ls
    induction ls with
    | nil => intro n; rfl
    | cons l ls ih => intro n; simp only [searchArgLines, FilterArg.keep, hc, ih]
  have h2 : ∀ ls n, searchArgLines .obj ls n = searchArgLines (.str []) ls n := by
    intro ls
    induction ls with
    | nil => intro n; rfl
    | cons l ls ih => intro n; simp only [searchArgLines, FilterArg.keep, hc, ih]
  constructor
  · simp only [searchArg, h1]
  · simp only [searchArg, h2]

theorem searchArg_lines_eq (filters : Filters) (arg : FilterArg)
    (h : ∀ t, arg.keep t = .ok (filters.keep t)) (ls : List Str) (n : Nat) :
    let a := searchArgLines arg ls n
    let b := searchLines filters ls n
    (match b.1 with | .ok () => a.res = .ok () | .error e => a.res = .error (.exc e)) ∧
    b.2 = a.out ++ (a.summary.map fun x => Event.summary x.1 filters x.2).toList := by
  induction ls generalizing n with
  | nil => exact ⟨rfl, rfl⟩
  | cons l ls ih =>
    simp only [searchArgLines, searchLines]
    cases hr : (Record.new.read l).res with
    | error e => exact ⟨rfl, by simp⟩
    | ok b =>
      cases b with
      | false =>
        obtain ⟨i1, i2⟩ := ih n
        exact ⟨i1, by simp only [Searched.after, i2, List.append_assoc]⟩
      | true =>
        simp only [h]
        cases filters.keep (Record.new.read l).obj.raw with
        | true =>
          obtain ⟨i1, i2⟩ := ih (n + 1)
          exact ⟨i1, by simp only [Searched.after, i2, List.append_assoc, if_true]⟩
        | false =>
          obtain ⟨i1, i2⟩ := ih n
          refine ⟨i1, ?_⟩
          simp only [Searched.after, Bool.false_eq_true, if_false]
          rw [List.append_assoc]
          exact congrArg _ i2

/-- C92: with a string or a list of strings this is the `search` of the other properties (C33, C34, C80): it ends in
    the same way, and prints the same and then the summary. -/
theorem C92_same (f : FileObj) (filters : Filters) :
    let arg : FilterArg := match filters with
      | .str s => .str s
      | .list ss => .list (ss.map .str)
      | .other => .obj
    (match (search f filters).1 with
      | .ok () => (searchArg f arg).res = .ok ()
      | .error e => (searchArg f arg).res = .error (.exc e)) ∧
    (search f filters).2 = (searchArg f arg).out ++
      ((searchArg f arg).summary.map fun x => Event.summary x.1 filters x.2).toList := by
  intro arg
  have hk : ∀ t, arg.keep t = .ok (filters.keep t) := by
    intro t
    cases filters with
    | str s => rfl
    | other => rfl
    | list ss =>
      show allIn t (ss.map .str) = .ok (ss.all fun s => contains s t)
      induction ss with
      | nil => rfl
      | cons s ss ih =>
        simp only [List.map_cons, allIn, List.all_cons]
        cases contains s t with
        | true => simpa using ih
        | false => rfl
  unfold search searchArg
  cases f.readlines with
  | error e => exact ⟨rfl, rfl⟩
  | ok ls => exact searchArg_lines_eq filters arg hk ls 0

end

section
attribute [local instance] Py.Tables.cpython311

/-- C92 is false as it stands: `search(file, ('KLAX',))` prints the record of KSEA, which does not contain `KLAX`, and
    `search(file, ['KSEA', None])` raises `TypeError`. -/
theorem C92_refuted :
    ∃ s ls, Lines s ls ∧
      (∃ filters t, Event.line t ∈ (searchArg (.text s) filters).out ∧ ¬ Wanted filters t ∧
        (searchArg (.text s) filters).summary = some (1, true)) ∧
      ∃ filters, (searchArg (.text s) filters).res = .error .typeError := by
  refine ⟨Sample.airport, [Sample.airport], .last (by decide +kernel) (by decide +kernel),
    ⟨.collection [.str (py!"KLAX")], Sample.airport, ?_, ?_, ?_⟩, .list [.str (py!"KSEA"), .obj], ?_⟩
  · decide +kernel
  · intro h
    have := h (py!"KLAX") (.head _)
    rw [← contains_iff] at this
    exact absurd this (by decide +kernel)
  · decide +kernel
  · decide +kernel

/-- a list that starts with a string that does not occur raises nothing: `all` stops there -/
example : (searchArg (.text Sample.airport) (.list [.str (py!"KLAX"), .obj])).res = .ok () ∧
    (searchArg (.text Sample.airport) (.list [.str (py!"KLAX"), .obj])).summary = some (0, false) := by decide +kernel

example : Proper (.list [.str (py!"KSEA"), .str (py!"TACOMA")]) := by
  intro x hx
  rcases hx with _ | ⟨_, _ | ⟨_, hx⟩⟩
  · exact ⟨_, rfl⟩
  · exact ⟨_, rfl⟩
  · cases hx

example : (searchArg (.text (Sample.airport ++ [10] ++ Sample.vhf)) (.list [.str (py!"KSEA"), .str (py!"TACOMA")])).out =
    [.line Sample.airport] := by decide +kernel

end

end Arinc
