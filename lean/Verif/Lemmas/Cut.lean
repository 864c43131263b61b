import Verif.Spec.Cut
import Verif.Lemmas.File
import Verif.Lemmas.Handles
/-! Helper lemmas: files that are cut short. -/
namespace Arinc
open Py Spec

theorem noEOL_prefix {q l : Str} (h : NoEOL l) (hq : q <+: l) : NoEOL q := fun c hc => h c (hq.subset hc)

theorem cut_line {l q : Str} (ls : List Str) (h : NoEOL l) (hq : q <+: l) :
    ∃ n lp, Lines q lp ∧ CutLines (l :: ls) n lp := by
  by_cases hne : q = []
  · subst hne
    exact ⟨0, [], .nil, .between⟩
  · exact ⟨0, [q], .last (noEOL_prefix h hq) hne, .within (ls := l :: ls) (n := 0) rfl hq hne⟩

theorem cut_succ {l : Str} {ls lp : List Str} {n : Nat} (h : CutLines ls n lp) : CutLines (l :: ls) (n + 1) (l :: lp) := by
  cases h with
  | between => exact .between (ls := l :: ls) (n := n + 1)
  | within h hq hne => exact .within (ls := l :: ls) (n := n + 1) h hq hne

theorem lines_prefix {s : Str} {ls : List Str} (h : Lines s ls) :
    ∀ {p : Str}, p <+: s → ∃ n lp, Lines p lp ∧ CutLines ls n lp := by
  induction h with
  | nil =>
    intro p hp
    rw [List.prefix_nil.1 hp]
    exact ⟨0, [], .nil, .between⟩
  | last hl hne => exact fun hp => cut_line [] hl hp
  | @lf l s ls hl _ ih =>
    intro p hp
    rcases prefix_append_cases hp with h1 | ⟨q, h1, rfl⟩
    · exact cut_line ls hl h1
    · cases q with
      | nil => exact cut_line ls hl (by simp)
      | cons x q =>
        obtain ⟨rfl, h2⟩ := List.cons_prefix_cons.1 h1
        obtain ⟨n, lp, h3, h4⟩ := ih h2
        exact ⟨n + 1, l :: lp, .lf hl h3, cut_succ h4⟩
  | @crlf l s ls hl _ ih =>
    intro p hp
    rcases prefix_append_cases hp with h1 | ⟨q, h1, rfl⟩
    · exact cut_line ls hl h1
    · cases q with
      | nil => exact cut_line ls hl (by simp)
      | cons x q =>
        obtain ⟨rfl, h2⟩ := List.cons_prefix_cons.1 h1
        cases q with
        | nil => exact ⟨1, [l], .cr hl .nil (by simp), .between (ls := l :: ls) (n := 1)⟩
        | cons y q =>
          obtain ⟨rfl, h3⟩ := List.cons_prefix_cons.1 h2
          obtain ⟨n, lp, h4, h5⟩ := ih h3
          exact ⟨n + 1, l :: lp, .crlf hl h4, cut_succ h5⟩
  | @cr l s ls hl _ hs ih =>
    intro p hp
    rcases prefix_append_cases hp with h1 | ⟨q, h1, rfl⟩
    · exact cut_line ls hl h1
    · cases q with
      | nil => exact cut_line ls hl (by simp)
      | cons x q =>
        obtain ⟨rfl, h2⟩ := List.cons_prefix_cons.1 h1
        obtain ⟨n, lp, h3, h4⟩ := ih h2
        refine ⟨n + 1, l :: lp, .cr hl h3 ?_, cut_succ h4⟩
        cases q with
        | nil => simp
        | cons y q =>
          obtain ⟨t, rfl⟩ := h2
          simpa using hs

section
variable [PyUnicode]

/-- the beginning of a line that is a record although more follows -/
theorem torn_space {l q : Str} (hq : q <+: l) (hw : WellShaped q) (hlen : (strip l).length ≤ 132) :
    ∃ ws, AllSpace ws ∧ l = q ++ ws := by
  obtain ⟨r, rfl⟩ := hq
  refine ⟨r, ?_, rfl⟩
  obtain ⟨t, ⟨pre, post, rfl, hpre, hpost⟩, ht⟩ := hw
  rw [show pre ++ t ++ post ++ r = pre ++ (t ++ (post ++ r)) by simp, strip_space_append hpre] at hlen
  have hnl : NoLeadingSpace (t ++ (post ++ r)) := by
    intro c hc
    apply isRecord_head ht
    cases t with
    | nil => cases ht.length
    | cons x t => exact hc
  obtain ⟨ws, he, hs⟩ := eq_strip_append hnl
  generalize strip (t ++ (post ++ r)) = u at he hlen
  have hle : u.length ≤ t.length := by rw [ht.length]; exact hlen
  obtain ⟨z, hz, hz'⟩ : ∃ z, t = u ++ z ∧ ws = z ++ (post ++ r) := by
    refine ⟨t.drop u.length, ?_, ?_⟩
    · have := congrArg (List.take u.length) he
      rw [List.take_append_of_le_length hle, List.take_left' rfl] at this
      conv => lhs; rw [← List.take_append_drop u.length t, this]
    · have := congrArg (List.drop u.length) he
      rw [List.drop_append_of_le_length hle, List.drop_left' rfl] at this
      exact this.symm
  intro c hc
  exact hs c (by rw [hz']; simp [hc])

theorem parse_congr {l l' : Str} (h : Record.new.read l = Record.new.read l') (output : Bool) (legs : Legs) :
    parse l output legs = parse l' output legs := by
  unfold parse
  rw [h]

theorem searchLines_last (filters : Filters) (a : List Str) {l l' : Str} (h : Record.new.read l = Record.new.read l')
    (n : Nat) : searchLines filters (a ++ [l]) n = searchLines filters (a ++ [l']) n := by
  induction a generalizing n with
  | nil => simp only [List.nil_append, searchLines, h]
  | cons x a ih => simp only [List.cons_append, searchLines, ih]

theorem cut_same {ls lp : List Str} {n : Nat} (h : CutLines ls n lp) (hlong : NoneLonger ls) :
    ∃ m, lp.length ≤ m + 1 ∧ m ≤ lp.length ∧ m ≤ ls.length ∧
      (∀ output legs, parseLines output lp legs = parseLines output (ls.take m) legs) ∧
      ∀ filters, searchLines filters lp 0 = searchLines filters (ls.take m) 0 := by
  cases h with
  | between =>
    refine ⟨(ls.take n).length, by omega, Nat.le_refl _, by simp; omega, fun _ _ => ?_, fun _ => ?_⟩ <;>
      rw [List.length_take, List.take_eq_take_min.symm]
  | @within l q hl hq hne =>
    have hn : n < ls.length := (List.getElem?_eq_some_iff.1 hl).1
    have hlen : (ls.take n).length = n := by rw [List.length_take]; omega
    by_cases hw : WellShaped q
    · obtain ⟨ws, hs, hl'⟩ := torn_space hq hw (hlong l (List.mem_of_getElem? hl))
      have hr : Record.new.read q = Record.new.read l := by
        rw [hl']
        exact (read_append_space q ws hs Record.new).symm
      have ht : ls.take (n + 1) = ls.take n ++ [l] := by
        rw [List.take_add_one, hl]; rfl
      refine ⟨n + 1, by simp; omega, by simp; omega, by omega, fun output legs => ?_, fun filters => ?_⟩
      · rw [ht, parseLines_append, parseLines_append]
        simp only [parseLines, parse_congr hr]
      · rw [ht]
        exact searchLines_last filters _ hr 0
    · have hj : ∀ x ∈ [q], ¬ (WellShaped x ∧ ∃ k, Resolves x k) := by
        intro x hx
        simp only [List.mem_singleton] at hx
        subst hx
        exact fun h => hw h.1
      refine ⟨n, by simp; omega, by simp; omega, by omega, fun output legs => ?_, fun filters => ?_⟩
      · have := parseLines_insert hj output (ls.take n) [] legs
        simpa using this
      · have := searchLines_insert hj filters (ls.take n) [] 0
        simpa using this

/-- the first lines print the first part, and end as all do or normally -/
theorem parseLines_take (output : Bool) (ls : List Str) (m : Nat) (legs : Legs) :
    (parseLines output (ls.take m) legs).out <+: (parseLines output ls legs).out ∧
    ((parseLines output (ls.take m) legs).res = .ok () ∨
     (parseLines output (ls.take m) legs).res = (parseLines output ls legs).res) := by
  conv in (occs := *) parseLines output ls legs => all_goals rw [← List.take_append_drop m ls, parseLines_append]
  cases hr : (parseLines output (ls.take m) legs).res with
  | error e => exact ⟨by simp, .inr (by simp [hr])⟩
  | ok x => exact ⟨by simp, .inl rfl⟩

end
end Arinc
