import Verif.Props.Files
/-!
# C114: sorting, selecting, splitting
-/
namespace Arinc
open Py Spec

section
variable [PyUnicode]

omit [PyUnicode] in
/-- the first that is not so -/
theorem first_not {α : Type} {P : α → Prop} {ls : List α} (h : ¬ ∀ l ∈ ls, P l) :
    ∃ pre l post, ls = pre ++ l :: post ∧ (∀ m ∈ pre, P m) ∧ ¬ P l := by
  induction ls with
  | nil => exact absurd (by simp) h
  | cons a ls ih =>
    by_cases ha : P a
    · obtain ⟨pre, l, post, rfl, h1, h2⟩ := ih fun hl => h fun l hm => by
        rcases List.mem_cons.1 hm with rfl | hm
        · exact ha
        · exact hl l hm
      refine ⟨a :: pre, l, post, rfl, ?_, h2⟩
      intro m hm
      rcases List.mem_cons.1 hm with rfl | hm
      · exact ha
      · exact h1 m hm
    · exact ⟨[], a, ls, rfl, by simp, ha⟩

/-- `read_file` returns iff no line raises -/
theorem readFile_returns {s : Str} {ls : List Str} (h : Lines s ls) {output : Bool} {legs : Legs} (hl : Grown legs) :
    (readFile (.text s) output legs).res = .ok () ↔ ∀ l ∈ ls, ∀ e, (parse l output legTypeDesc).res ≠ .error e := by
  refine ⟨fun hr => ?_, fun hok => (C29_all_lines s ls h output legs hl hok).1⟩
  apply Classical.byContradiction
  intro hn
  obtain ⟨pre, l, post, rfl, h1, h2⟩ := first_not hn
  cases hx : (parse l output legTypeDesc).res with
  | ok b => exact h2 fun e he => by rw [hx] at he; cases he
  | error e =>
    rw [(C29_first_exception s pre post l h output legs hl h1 e hx).1] at hr
    cases hr

/-- `search` returns iff no line raises -/
theorem search_returns {s : Str} {ls : List Str} (h : Lines s ls) {filters : Filters} :
    (search (.text s) filters).1 = .ok () ↔ ∀ l ∈ ls, ∀ e, (Record.new.read l).res ≠ .error e := by
  rw [search_lines h]
  refine ⟨fun hr => ?_, fun hok => by rw [searchLines_ok hok]⟩
  apply Classical.byContradiction
  intro hn
  obtain ⟨pre, l, post, rfl, h1, h2⟩ := first_not hn
  cases hx : (Record.new.read l).res with
  | ok b => exact h2 fun e he => by rw [hx] at he; cases he
  | error e => rw [searchLines_stop h1 hx] at hr; cases hr

/-- C114: Sorting the lines of a file, or rearranging them in any way, does not matter to whether `read_file` returns, and if
    it does it prints the same, in the order of the lines: each line has its part of what is printed. -/
theorem C114_read_file {s t : Str} {ls ls' : List Str} (hs : Lines s ls) (ht : Lines t ls') (hp : ls'.Perm ls)
    (output : Bool) {legs legs' : Legs} (hl : Grown legs) (hl' : Grown legs') :
    ((readFile (.text t) output legs').res = .ok () ↔ (readFile (.text s) output legs).res = .ok ()) ∧
    ((readFile (.text s) output legs).res = .ok () →
      (readFile (.text t) output legs').out.Perm (readFile (.text s) output legs).out ∧
      ∃ part : Str → List Event, (readFile (.text s) output legs).out = ls.flatMap part ∧
        (readFile (.text t) output legs').out = ls'.flatMap part) := by
  refine ⟨?_, fun hr => ?_⟩
  · rw [readFile_returns ht hl', readFile_returns hs hl]
    exact ⟨fun h l hm => h l (hp.symm.subset hm), fun h l hm => h l (hp.subset hm)⟩
  · have hok := (readFile_returns hs hl).1 hr
    have h1 := (C29_all_lines s ls hs output legs hl hok).2
    have h2 := (C29_all_lines t ls' ht output legs' hl' fun l hm => hok l (hp.subset hm)).2
    refine ⟨?_, _, h1, h2⟩
    rw [h1, h2]
    exact hp.flatMap_right _

open Classical in
/-- C114: The same of `search`: the same complaints and records, in the order of the lines, and the same summary. -/
theorem C114_search {s t : Str} {ls ls' : List Str} (hs : Lines s ls) (ht : Lines t ls') (hp : ls'.Perm ls)
    (filters : Filters) :
    ((search (.text t) filters).1 = .ok () ↔ (search (.text s) filters).1 = .ok ()) ∧
    ((search (.text s) filters).1 = .ok () →
      ∃ (part : Str → List Event) (n : Nat) (green : Bool),
        (search (.text s) filters).2 = ls.flatMap part ++ [.summary n filters green] ∧
        (search (.text t) filters).2 = ls'.flatMap part ++ [.summary n filters green]) := by
  refine ⟨?_, fun hr => ?_⟩
  · rw [search_returns ht, search_returns hs]
    exact ⟨fun h l hm => h l (hp.symm.subset hm), fun h l hm => h l (hp.subset hm)⟩
  · have hok := (search_returns hs).1 hr
    have hn : (hits filters ls').length = (hits filters ls).length := by
      unfold hits
      exact (hp.filter _).length_eq
    refine ⟨_, _, _, by rw [search_lines hs, searchLines_ok hok], ?_⟩
    rw [search_lines ht, searchLines_ok fun l hm => hok l (hp.subset hm), hn]

omit [PyUnicode] in
theorem sublist_flatMap {α β : Type} {f : α → List β} {a b : List α} (h : a.Sublist b) :
    (a.flatMap f).Sublist (b.flatMap f) := by
  induction h with
  | slnil => exact List.Sublist.refl _
  | cons x _ ih => rw [List.flatMap_cons]; exact ih.trans (List.sublist_append_right _ _)
  | cons_cons x _ ih => rw [List.flatMap_cons, List.flatMap_cons]; exact (List.Sublist.refl _).append ih

open Classical in
/-- C114: Taking lines out of a file that is read to its end takes what they come to out of what is printed, and nothing else:
    `read_file` and `search` still return, and print some of what they printed, in the same order. -/
theorem C114_selection {s t : Str} {ls ls' : List Str} (hs : Lines s ls) (ht : Lines t ls') (hp : ls'.Sublist ls) :
    (∀ (output : Bool) (legs legs' : Legs), Grown legs → Grown legs' → (readFile (.text s) output legs).res = .ok () →
      (readFile (.text t) output legs').res = .ok () ∧
      (readFile (.text t) output legs').out.Sublist (readFile (.text s) output legs).out) ∧
    ∀ filters, (search (.text s) filters).1 = .ok () →
      (search (.text t) filters).1 = .ok () ∧
      (body (search (.text t) filters).2).Sublist (body (search (.text s) filters).2) := by
  refine ⟨fun output legs legs' hl hl' hr => ?_, fun filters hr => ?_⟩
  · have hok := (readFile_returns hs hl).1 hr
    have hok' : ∀ l ∈ ls', _ := fun l hm => hok l (hp.subset hm)
    refine ⟨(readFile_returns ht hl').2 hok', ?_⟩
    rw [(C29_all_lines s ls hs output legs hl hok).2, (C29_all_lines t ls' ht output legs' hl' hok').2]
    exact sublist_flatMap hp
  · have hok := (search_returns hs).1 hr
    have hok' : ∀ l ∈ ls', _ := fun l hm => hok l (hp.subset hm)
    refine ⟨(search_returns ht).2 hok', ?_⟩
    rw [search_lines hs, search_lines ht, searchLines_ok hok, searchLines_ok hok']
    unfold body
    rw [List.filter_append, List.filter_append]
    simp only [notSummary, List.filter_cons, List.filter_nil, List.append_nil, Bool.false_eq_true, if_false]
    exact (sublist_flatMap hp).filter _

/-- C114: Splitting a file between lines into the files of a folder does not matter, whether or not something raises:
    `read_folder` does what `read_file` does with all in one. -/
theorem C114_split {pieces : List Str} (h : ∀ a ∈ pieces, a = [] ∨ a.getLast? = some 10) (last : Str) (legs : Legs) :
    readFolder (some ((pieces ++ [last]).map .text)) legs = readFile (.text (pieces.flatten ++ last)) true legs := by
  show readFiles _ legs = _
  induction pieces generalizing legs with
  | nil =>
    simp only [List.nil_append, List.map_cons, List.map_nil, List.flatten_nil, readFiles]
    cases hr : (readFile (.text last) true legs).res with
    | error e =>
      simp only
      rw [← hr]
    | ok b =>
      simp only [List.append_nil]
      rw [← hr]
  | cons a pieces ih =>
    have hc : Complete a (pieces.flatten ++ last) := by
      rcases h a (by simp) with rfl | hl
      · exact .nil _
      · obtain ⟨a', rfl⟩ := List.getLast?_eq_some_iff.1 hl
        exact .lf a' _
    rw [List.flatten_cons, List.append_assoc, C29_concatenation _ _ hc]
    simp only [List.cons_append, List.map_cons, readFiles]
    rw [ih fun a ha => h a (by simp [ha])]
    cases hr : (readFile (.text a) true legs).res with
    | error e => simp only; rw [← hr]
    | ok b => rfl

end

section
attribute [local instance] Py.Tables.cpython311

/-- two records in the other order, and one of them -/
example : (readFile (.text (Sample.airport ++ [10] ++ Sample.vhf ++ [10])) true legTypeDesc).res = .ok () ∧
    (readFile (.text (Sample.vhf ++ [10] ++ Sample.airport ++ [10])) true legTypeDesc).out.length = 2 ∧
    (readFile (.text (Sample.vhf ++ [10] ++ Sample.airport ++ [10])) true legTypeDesc).out ≠
      (readFile (.text (Sample.airport ++ [10] ++ Sample.vhf ++ [10])) true legTypeDesc).out ∧
    (readFile (.text (Sample.vhf ++ [10])) true legTypeDesc).out.length = 1 := by decide +kernel

/-- the lines of these files -/
example : Lines (Sample.airport ++ 10 :: (Sample.vhf ++ 10 :: [])) [Sample.airport, Sample.vhf] ∧
    Lines (Sample.vhf ++ 10 :: (Sample.airport ++ 10 :: [])) [Sample.vhf, Sample.airport] ∧
    [Sample.vhf, Sample.airport].Perm [Sample.airport, Sample.vhf] ∧ Grown legTypeDesc :=
  ⟨.lf (by decide +kernel) (.lf (by decide +kernel) .nil), .lf (by decide +kernel) (.lf (by decide +kernel) .nil),
   .swap _ _ _, grown_init⟩

/-- pieces of a file -/
example : ∀ a ∈ [Sample.airport ++ [10], Sample.vhf ++ [10] ++ Sample.sid ++ [10]], a = [] ∨ a.getLast? = some 10 := by
  decide +kernel

/-- if a line raises, the order matters -/
theorem C114_order_matters :
    (readFile (.text (Sample.airport ++ [10] ++ Sample.vhfBadFreq ++ [10])) true legTypeDesc).out.length ≠
    (readFile (.text (Sample.vhfBadFreq ++ [10] ++ Sample.airport ++ [10])) true legTypeDesc).out.length := by
  decide +kernel

end
end Arinc
