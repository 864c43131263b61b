import Verif.Spec.SourceEnd
import Verif.Props.SourceProgram
import Verif.Props.Fates
/-!
# C125: from the text of a line to JSON and the table, by the source, in any program
-/
namespace Arinc.Lang
open Py _root_.Spec

section
variable [PyUnicode]

/-! ## Lemmas -/

theorem run_append (E : Env) : ∀ (a b : List Op) (s : Interp),
    (Interp.run E (a ++ b) s).2 = (Interp.run E b (Interp.run E a s).2).2
  | [], _, _ => rfl
  | op :: a, b, s => by
    simp only [List.cons_append, Interp.run]
    exact run_append E a b _

theorem step_leaves {w : World} (h : w.OK) {i : Nat} {op : Op} (hl : Leaves i op) : (w.step op).1.objs i = w.objs i := by
  cases op with
  | new j => simp only [World.step, World.set]; rw [if_neg (fun e => hl e.symm)]
  | read j line =>
    simp only [World.step, h.reg, readG_init, World.set]
    rw [if_neg (fun e => hl e.symm)]
  | decode j o => rfl
  | json j o b => rfl
  | parse line o =>
    have hw : w.step (.parse line o) = _ := parse_world h line o
    rw [hw]
  | readFile f o => simp only [World.step, readFile_world f o h]
  | readFolder p => simp only [World.step, readFolder_world p h]
  | search f q => simp only [World.step, search_world f q h]

theorem run_leaves {i : Nat} : ∀ (ops : List Op) {w : World}, w.OK → (∀ op ∈ ops, Leaves i op) →
    (w.run ops).1.objs i = w.objs i
  | [], _, _, _ => rfl
  | op :: ops, w, h, hl => by
    simp only [World.run]
    rw [run_leaves ops (step_ok h op) (fun o ho => hl o (by simp [ho])), step_leaves h (hl op (by simp))]

/-- the state in which the object has read the line -/
theorem later_state (sc : Screen) (n : Nat) (before : List Op) (i : Nat) (line : Str) (between : List Op)
    (hq : ∀ op ∈ before ++ between, Sayable op) (hl : ∀ op ∈ between, Leaves i op) {c : Str}
    (hc : attr (py!"continuation") ((Interp.run (Src.library.env sc (n + 8)) before Interp.start).2.objs i) = some (.str c)) :
    ∃ (r : Record) (w : World), r.continuation = c ∧ w.objs i = (r.read line).obj ∧
      Matches w (Interp.later (Src.library.env sc (n + 8)) before i line between) := by
  obtain ⟨-, -, h⟩ := exec_run sc n before start_matches (fun op ho => hq op (by simp [ho]))
  obtain ⟨-, -, g⟩ := exec_run sc n (.read i line :: between) h (by
    intro op ho
    rcases List.mem_cons.1 ho with rfl | ho
    · trivial
    · exact hq op (by simp [ho]))
  refine ⟨(World.init.run before).1.objs i, _, ?_, ?_, by unfold Interp.later; rw [run_append]; exact g⟩
  · rw [h.objs i] at hc
    have h' : attr (py!"continuation") (recordVal ((World.init.run before).1.objs i)) =
        some (.str ((World.init.run before).1.objs i).continuation) := rfl
    rw [h'] at hc
    injection hc with hc
    injection hc
  · have e : ((World.init.run before).1.run (.read i line :: between)).1 =
        (((World.init.run before).1.step (.read i line)).1.run between).1 := rfl
    rw [e, run_leaves between (step_ok h.ok _) hl]
    simp only [World.step, h.ok.reg, readG_init, World.set, if_pos]

/-- `json` of an object in a program -/
theorem gives_json (sc : Screen) (n : Nat) {w : World} {s : Interp} (h : Matches w s) (i : Nat) (output single : Bool) :
    s.Gives (Src.library.env sc (n + 8)) (.json i output single) output ((w.objs i).json output single).1 := by
  obtain ⟨ts, h1, h2, -⟩ := exec_step sc n h (.json i output single) trivial
  obtain ⟨g1, g2⟩ := h1
  refine ⟨g1, ?_⟩
  have hw : (w.step (.json i output single)).1.legs = w.legs := rfl
  rw [h2]
  change s.st.out ++ ts = _
  congr 1
  cases output with
  | true =>
    have : (some [((w.objs i).json true single).1] : Option (List Str)) = some ts := g2
    injection this with this
    exact this.symm
  | false =>
    have : (some [] : Option (List Str)) = some ts := g2
    injection this with this
    exact this.symm

/-- `decode` of an object in a program, if it prints nothing but the table -/
theorem gives_decode (sc : Screen) (n : Nat) {w : World} {s : Interp} (h : Matches w s) (i : Nat) (output : Bool) {rows : List Row}
    (hr : ((w.objs i).decode output w.legs).res = .ok rows)
    (ho : ((w.objs i).decode output w.legs).out = (if output then [.table rows] else [])) :
    ∃ t, shownTable sc.width rows = some t ∧ s.Gives (Src.library.env sc (n + 8)) (.decode i output) output t := by
  obtain ⟨ts, h1, h2, -⟩ := exec_step sc n h (.decode i output) trivial
  have e : (w.step (.decode i output)).2 = .decode ((w.objs i).decode output w.legs).res ((w.objs i).decode output w.legs).out := rfl
  rw [e, hr, ho] at h1
  obtain ⟨⟨t, g1, g2⟩, g3⟩ := h1
  refine ⟨t, g1, g2, ?_⟩
  rw [h2]
  change s.st.out ++ ts = _
  congr 1
  cases output with
  | true =>
    have h3 : (do let a ← shownTable sc.width rows; some [a]) = some ts := by simpa [Event.text] using g3
    rw [g1] at h3
    simpa using h3.symm
  | false => simpa using g3.symm

/-! ## C125 -/

/-- C125: in any program, after `i.read(line)` of a line that is a record and any calls that leave the object alone,
    `i.json(output, True)` returns a JSON object with the names of the fields listed for that kind of record, in order, each
    with the columns of the last field of that name; the text is printed if `output` is set, and nothing else is. -/
theorem C125_json (sc : Screen) (n : Nat) (before : List Op) (i : Nat) (between : List Op)
    (hq : ∀ op ∈ before ++ between, Sayable op) (hb : ∀ op ∈ between, Leaves i op) (output : Bool)
    {line c t k : Str} {fs : List Std.StdField}
    (hc : attr (py!"continuation") ((Interp.run (Src.library.env sc (n + 8)) before Interp.start).2.objs i) = some (.str c))
    (h : IsLine c line t k fs) (hl : PlainText line) :
    ∃ text d, (Interp.later (Src.library.env sc (n + 8)) before i line between).Gives (Src.library.env sc (n + 8))
        (.json i output true) output text ∧
      jsonObject text = some d ∧ d.map Prod.fst = (fs.map (·.name)).eraseDups ∧
      ∀ m v, (m, v) ∈ d ↔ ((fs.filter (fun f => f.name == m)).getLast?).map (fun f => pick line f.shown.1) = some v := by
  obtain ⟨r, w, rfl, hw, hm⟩ := later_state sc n before i line between hq hb hc
  obtain ⟨d, h1, h2, h3⟩ := C81_json h hl output
  rw [← hw] at h1
  exact ⟨_, d, gives_json sc n hm i output true, h1, h2, h3⟩

/-- C125: the multi-line form denotes the same object, sorted by name. -/
theorem C125_pretty (sc : Screen) (n : Nat) (before : List Op) (i : Nat) (between : List Op)
    (hq : ∀ op ∈ before ++ between, Sayable op) (hb : ∀ op ∈ between, Leaves i op) (output : Bool)
    {line c t k : Str} {fs : List Std.StdField}
    (hc : attr (py!"continuation") ((Interp.run (Src.library.env sc (n + 8)) before Interp.start).2.objs i) = some (.str c))
    (h : IsLine c line t k fs) (hl : PlainText line) :
    ∃ text d, (Interp.later (Src.library.env sc (n + 8)) before i line between).Gives (Src.library.env sc (n + 8))
        (.json i output false) output text ∧
      jsonObject text = some d ∧ (d.map Prod.fst).Pairwise (· < ·) ∧
      ∀ m v, (m, v) ∈ d ↔ ((fs.filter (fun f => f.name == m)).getLast?).map (fun f => pick line f.shown.1) = some v := by
  obtain ⟨r, w, rfl, hw, hm⟩ := later_state sc n before i line between hq hb hc
  obtain ⟨d, h1, h2, h3⟩ := C81_pretty h hl output
  rw [← hw] at h1
  exact ⟨_, d, gives_json sc n hm i output false, h1, h2, h3⟩

/-- C125: if all fields of the line have a meaning, `i.decode(output)` returns the table with a row for each of them, in
    order: its name, its columns between quotes, its meaning; it is printed if `output` is set, and nothing else is. -/
theorem C125_decode (sc : Screen) (n : Nat) (before : List Op) (i : Nat) (between : List Op)
    (hq : ∀ op ∈ before ++ between, Sayable op) (hb : ∀ op ∈ between, Leaves i op) (output : Bool)
    {line c t k : Str} {fs : List Std.StdField}
    (hc : attr (py!"continuation") ((Interp.run (Src.library.env sc (n + 8)) before Interp.start).2.objs i) = some (.str c))
    (h : IsLine c line t k fs) (ha : Ascii line) {xs : List (Str × Str × Reading)} (hs : shownFor k line fs = some xs) :
    ∃ rows text, shownTable sc.width rows = some text ∧
      (Interp.later (Src.library.env sc (n + 8)) before i line between).Gives (Src.library.env sc (n + 8))
        (.decode i output) output text ∧
      rows.map (fun r => (r.field, r.value, (.ok r.decoded : Except Exc PyVal))) =
        xs.map (fun x => (x.1, py!"'" ++ x.2.1 ++ py!"'", x.2.2.value)) := by
  obtain ⟨r, w, rfl, hw, hm⟩ := later_state sc n before i line between hq hb hc
  obtain ⟨rows, h1, h2, h3, h4⟩ := C76_decode h ha hs output hm.ok.legs
  rw [← hw] at h1 h2
  obtain ⟨text, g1, g2⟩ := gives_decode sc n hm i output h1 h2
  refine ⟨rows, text, g1, g2, ?_⟩
  apply List.ext_getElem?
  intro j
  simp only [List.getElem?_map]
  cases hx : xs[j]? with
  | none =>
    have : rows[j]? = none := by
      rw [List.getElem?_eq_none_iff] at hx ⊢; omega
    rw [this]; rfl
  | some x =>
    obtain ⟨y, hy, hrow⟩ := h4 j x.1 x.2.1 x.2.2 hx
    rw [hrow]
    simp [hy]

end

section
attribute [local instance] Py.Tables.cpython311

/-- what the program of the examples has done before: object 1 has read something else -/
def earlier : List Op := [.new 0, .new 1, .read 1 someLine]

/-- what it does in between: object 1 reads the airport and is decoded, object 0 is shown -/
def meanwhile : List Op := [.read 1 Sample.airport, .decode 1 true, .json 0 true true, .parse (py!"ABC") true]

theorem example_ops : (∀ op ∈ earlier ++ meanwhile, Sayable op) ∧ (∀ op ∈ meanwhile, Leaves 0 op) := by
  constructor
  · intro op h
    simp only [earlier, meanwhile, List.cons_append, List.nil_append, List.mem_cons, List.not_mem_nil, or_false] at h
    rcases h with rfl | rfl | rfl | rfl | rfl | rfl | rfl <;> trivial
  · intro op h
    simp only [meanwhile, List.mem_cons, List.not_mem_nil, or_false] at h
    rcases h with rfl | rfl | rfl | rfl
    · exact Nat.one_ne_zero
    all_goals trivial

theorem example_fresh : attr (py!"continuation") ((Interp.run (Src.library.env someScreen (0 + 8)) earlier Interp.start).2.objs 0) =
    some (.str []) := by
  obtain ⟨-, h, -⟩ := C124_program someScreen 0 earlier (fun op ho => example_ops.1 op (by simp [ho]))
  have e : ((after earlier).objs 0).continuation = [] := by decide +kernel
  have a : ∀ r : Record, attr (py!"continuation") (recordVal r) = some (.str r.continuation) := fun _ => rfl
  rw [h 0, a, e]

/-- C125 (hypotheses are met): object 0 reads the airport, is left alone, and is asked for JSON and for the table -/
example : ∃ text d, (Interp.later (Src.library.env someScreen 8) earlier 0 Sample.airport meanwhile).Gives
      (Src.library.env someScreen 8) (.json 0 true true) true text ∧
    jsonObject text = some d ∧ (py!"Speed Limit Altitude", py!"10000") ∈ d := by
  obtain ⟨text, d, h1, h2, -, h4⟩ := C125_json someScreen 0 earlier 0 meanwhile example_ops.1 example_ops.2 true
    example_fresh airport_isLine (by unfold PlainText; decide +kernel)
  exact ⟨text, d, h1, h2, (h4 _ _).2 (by decide +kernel)⟩

example : ∃ rows text, shownTable someScreen.width rows = some text ∧ (Interp.later (Src.library.env someScreen 8) earlier 0
      Sample.airport meanwhile).Gives (Src.library.env someScreen 8) (.decode 0 false) false text ∧ rows.length = 28 := by
  obtain ⟨rows, text, h1, h2, h3⟩ := C125_decode someScreen 0 earlier 0 meanwhile example_ops.1 example_ops.2 false
    example_fresh airport_isLine (by unfold Ascii; decide +kernel) (xs := _) rfl
  refine ⟨rows, text, h1, h2, ?_⟩
  have := congrArg List.length h3
  rw [List.length_map, List.length_map] at this
  exact this.trans (by decide +kernel)

end
end Arinc.Lang
