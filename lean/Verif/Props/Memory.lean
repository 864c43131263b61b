import Verif.Spec.Memory
import Verif.Spec.Text
import Verif.Props.Decode
import Verif.Props.Fault
import Verif.Lemmas.File
import Verif.Lemmas.Text
import Mathlib.Data.List.Perm.Subperm
/-!
# C112: what stays in memory
-/
namespace Arinc
open Py Spec

/-- the leg table has grown by different codes that satisfy `G` -/
def Kept (G : Str → Prop) (legs : Legs) : Prop :=
  ∃ extra, legs = legTypeDesc ++ extra ∧ (extra.map Prod.fst).Nodup ∧
    ∀ p ∈ extra, p.1 ∉ legTypeDesc.map Prod.fst ∧ p.2 = py!"<UNKNOWN>" ∧ G p.1

/-- the columns of a leg type are next to each other -/
def legColumns (s : FieldSpec) : Bool :=
  s.dec != .f021 || match s.slice.columns with
    | [i, j] => j == i + 1
    | _ => false

theorem leg_columns : registry.all (fun p => p.2.layouts.all fun l => l.all legColumns) = true := by decide +kernel

theorem pick_two {line : Str} {i : Nat} (h : i + 1 < line.length) :
    pick line [i, i + 1] = (line.drop i).take 2 := by
  have e1 : line[i]? = some (line[i]'(by omega)) := List.getElem?_eq_getElem _
  have e2 : line[i + 1]? = some (line[i + 1]'h) := List.getElem?_eq_getElem _
  have e3 : (line.drop i).take 2 = [line[i]'(by omega), line[i + 1]'h] := by
    rw [List.drop_eq_getElem_cons (by omega), List.drop_eq_getElem_cons h]
    rfl
  rw [e3]
  simp [pick, col, e1, e2]

section
variable [v : PyUnicode]

/-- the short words of a text satisfy `G` -/
def Words (G : Str → Prop) (s : Str) : Prop := ∀ k, isAlpha k = true → k.length ≤ 2 → k <:+: s → G k

/-- the leg types of an object satisfy `G` -/
def LegsOf (G : Str → Prop) (r : Record) : Prop :=
  ∀ f ∈ r.fields, f.dec = .f021 → isAlpha (strip f.value) = true → G (strip f.value)

theorem field_021_kept {G : Str → Prop} {w : Str} (hw : isAlpha (strip w) = true → G (strip w)) {legs : Legs}
    (h : Kept G legs) : Kept G (field_021 w legs).legs := by
  unfold field_021
  simp only
  split
  · exact h
  · split
    · exact h
    · next ha =>
      cases hk : legs.lookup (strip w) with
      | some s => exact h
      | none =>
        have hn := lookup_none_iff.1 hk
        obtain ⟨e, rfl, hnd, he⟩ := h
        rw [List.map_append, List.mem_append, not_or] at hn
        refine ⟨e ++ [(strip w, unknown)], by simp, ?_, ?_⟩
        · rw [List.map_append, List.nodup_append]
          refine ⟨hnd, by simp, ?_⟩
          rintro a ha' b hb rfl
          simp only [List.map_cons, List.map_nil, List.mem_singleton] at hb
          subst hb
          exact hn.2 ha'
        · intro p hp
          rcases List.mem_append.1 hp with hp | hp
          · exact he p hp
          · simp only [List.mem_singleton] at hp
            subst hp
            exact ⟨hn.1, rfl, hw (by simpa using ha)⟩

theorem runDec_kept {G : Str → Prop} {fn : DecFn} {w : Str} (rec : RecInfo)
    (hw : fn = .f021 → isAlpha (strip w) = true → G (strip w)) {legs : Legs} (h : Kept G legs) :
    Kept G (runDec fn w rec legs).legs := by
  cases fn
  case f021 => exact field_021_kept (hw rfl) h
  case ident n => simp only [runDec]; split <;> exact h
  all_goals exact h

theorem decodeRows_kept {G : Str → Prop} (rec : RecInfo) {fs : List Field}
    (hf : ∀ f ∈ fs, f.dec = .f021 → isAlpha (strip f.value) = true → G (strip f.value)) {legs : Legs}
    (h : Kept G legs) : Kept G (decodeRows rec fs legs).legs := by
  induction fs generalizing legs with
  | nil => exact h
  | cons f fs ih =>
    have h1 := runDec_kept rec (hf f (by simp)) h
    simp only [decodeRows]
    split
    · exact h1
    · exact ih (fun g hg => hf g (by simp [hg])) h1

theorem decode_kept {G : Str → Prop} {r : Record} (hr : LegsOf G r) (output : Bool) {legs : Legs} (h : Kept G legs) :
    Kept G (r.decode output legs).legs := by
  have := decodeRows_kept r.info hr h
  unfold Record.decode
  simp only
  split <;> exact this

theorem read_legsOf {G : Str → Prop} {r : Record} (h : LegsOf G r) {line : Str} (hG : Words G line) :
    LegsOf G (r.read line).obj := by
  rcases read_cases r line with ⟨_, h'⟩ | ⟨_, _, h'⟩ | ⟨hrec, k, d, hres, hd, hf, h'⟩
  · rw [h']; exact h
  · rw [h']; exact h
  · rw [h']
    unfold Record.readAs
    simp only
    split
    · exact h
    · unfold Record.finish
      cases hs : (d.branch (r.enter line k d).primary).select line with
      | error e => exact h
      | ok l =>
        rcases select_mem hs with hm | hm
        · intro f hf hdec ha
          obtain ⟨s, hs, rfl⟩ := List.mem_map.1 hf
          have h1 := List.all_eq_true.1 leg_columns _ (lookup_mem hd)
          have h2 := List.all_eq_true.1 (List.all_eq_true.1 h1 l (branch_layouts hm)) s hs
          have h3 := (layout_columns hd (branch_layouts hm) hs).2.1
          have hlen := length_line hrec
          simp only [FieldSpec.field] at hdec ha ⊢
          rw [legColumns, hdec] at h2
          simp only [bne_self_eq_false, Bool.false_or] at h2
          split at h2
          · next i j hc =>
            rw [hc] at ha h3 ⊢
            rw [eq_of_beq h2] at ha h3 ⊢
            have hp := pick_two (line := line) (i := i) (by have := h3 (i + 1) (by simp); omega)
            have hx := strip_inside (pick line [i, i + 1])
            refine hG _ ha (Nat.le_trans hx.length_le ?_) (hx.trans ?_)
            · rw [hp]; exact List.length_take_le _ _
            · rw [hp]; exact (List.take_prefix _ _).isInfix.trans (List.drop_suffix _ _).isInfix
          · cases h2
        · subst hm; intro f hf; cases hf

omit v in
theorem new_legsOf [PyUnicode] (G : Str → Prop) : LegsOf G Record.new := by
  intro f hf
  cases hf

theorem parse_kept {G : Str → Prop} {line : Str} (hG : Words G line) (output : Bool) {legs : Legs} (h : Kept G legs) :
    Kept G (parse line output legs).legs := by
  have := decode_kept (read_legsOf (new_legsOf G) hG) output h
  unfold parse
  simp only
  cases (Record.new.read line).res with
  | error e => exact h
  | ok b =>
    cases b with
    | false => exact h
    | true =>
      simp only
      split <;> exact this

theorem parseLines_kept {G : Str → Prop} (output : Bool) {ls : List Str} (hG : ∀ l ∈ ls, Words G l) {legs : Legs}
    (h : Kept G legs) : Kept G (parseLines output ls legs).legs := by
  induction ls generalizing legs with
  | nil => exact h
  | cons l ls ih =>
    have h1 := parse_kept (hG l (by simp)) output h
    simp only [parseLines]
    split
    · exact h1
    · exact ih (fun g hg => hG g (by simp [hg])) h1

omit v in
theorem chomped_mem {rs ls : List Str} (h : Chomped rs ls) {r : Str} (hr : r ∈ rs) :
    ∃ l ∈ ls, r = l ∨ r = l ++ [10] := by
  induction rs generalizing ls with
  | nil => cases hr
  | cons a rs ih =>
    cases ls with
    | nil => cases h
    | cons b ls =>
      rcases List.mem_cons.1 hr with rfl | hr
      · exact ⟨b, by simp, h.1⟩
      · obtain ⟨l, hl, hx⟩ := ih h.2 hr
        exact ⟨l, by simp [hl], hx⟩

omit v in
theorem lines_infix {s : Str} {ls : List Str} (h : Lines s ls) : ∀ l ∈ ls, l <:+: s := by
  induction h with
  | nil => intro l hl; cases hl
  | last h hne => intro l hl; rw [List.mem_singleton.1 hl]; exact List.infix_rfl
  | @lf a b bs h t ih =>
    intro l hl
    rcases List.mem_cons.1 hl with rfl | hl
    · exact (List.prefix_append _ _).isInfix
    · exact (ih l hl).trans ⟨a ++ [10], [], by simp⟩
  | @crlf a b bs h t ih =>
    intro l hl
    rcases List.mem_cons.1 hl with rfl | hl
    · exact (List.prefix_append _ _).isInfix
    · exact (ih l hl).trans ⟨a ++ [13, 10], [], by simp⟩
  | @cr a b bs h t hs ih =>
    intro l hl
    rcases List.mem_cons.1 hl with rfl | hl
    · exact (List.prefix_append _ _).isInfix
    · exact (ih l hl).trans ⟨a ++ [13], [], by simp⟩

theorem readlines_words {G : Str → Prop} {s : Str} (hG : Words G s) : ∀ l ∈ readlines s, Words G l := by
  intro r hr k ha hlen hin
  obtain ⟨ls, hls⟩ := lines_exist s
  obtain ⟨l, hl, hx⟩ := chomped_mem (lines_readlines hls) hr
  refine hG k ha hlen (List.IsInfix.trans ?_ (lines_infix hls l hl))
  rcases hx with rfl | rfl
  · exact hin
  · obtain ⟨a, b, he⟩ := hin
    rcases List.eq_nil_or_concat b with rfl | ⟨b', c, rfl⟩
    · have hne : k ≠ [] := by
        rintro rfl
        cases ha
      obtain ⟨k', c, rfl⟩ := List.eq_nil_or_concat k |>.resolve_left hne
      simp only [List.concat_eq_append, List.append_nil] at he ha
      rw [← List.append_assoc] at he
      have hc := (List.append_inj' he rfl).2
      simp only [List.cons.injEq, and_true] at hc
      subst hc
      unfold isAlpha at ha
      rw [List.all_append] at ha
      simp only [List.all_cons, List.all_nil, Bool.and_true, Bool.and_eq_true] at ha
      have := PyUnicode.alpha_ascii 10 (by decide)
      rw [ha.2.2] at this
      exact absurd this (by decide)
    · simp only [List.concat_eq_append] at he
      rw [← List.append_assoc] at he
      exact ⟨a, b', (List.append_inj' he rfl).1⟩

theorem readFile_kept {G : Str → Prop} {f : FileObj} (hG : ∀ s ∈ fileText f, Words G s) (output : Bool) {legs : Legs}
    (h : Kept G legs) : Kept G (readFile f output legs).legs := by
  cases f with
  | text s => exact parseLines_kept output (readlines_words (hG s (by simp [fileText]))) h
  | unopenable => exact h
  | undecodable => exact h

theorem readFiles_kept {G : Str → Prop} {fs : List FileObj} (hG : ∀ s ∈ fs.flatMap fileText, Words G s) {legs : Legs}
    (h : Kept G legs) : Kept G (readFiles fs legs).legs := by
  induction fs generalizing legs with
  | nil => exact h
  | cons f fs ih =>
    rw [List.flatMap_cons] at hG
    have h1 := readFile_kept (fun s hs => hG s (List.mem_append_left _ hs)) true h
    simp only [readFiles]
    split
    · exact h1
    · exact ih (fun s hs => hG s (List.mem_append_right _ hs)) h1

theorem step_kept {G : Str → Prop} {w : World} (hok : w.OK) (hl : Kept G w.legs) (ho : ∀ i, LegsOf G (w.objs i)) {op : Op}
    (hG : ∀ s ∈ decodedTexts op, Words G s) :
    Kept G (w.step op).1.legs ∧ ∀ i, LegsOf G ((w.step op).1.objs i) := by
  cases op with
  | new i =>
    refine ⟨hl, fun j => ?_⟩
    simp only [World.step, World.set]
    split
    · exact new_legsOf G
    · exact ho j
  | read i line =>
    simp only [World.step, hok.reg, readG_init]
    refine ⟨hl, fun j => ?_⟩
    simp only [World.set]
    split
    · exact read_legsOf (ho i) (hG line (by simp [decodedTexts]))
    · exact ho j
  | decode i output => exact ⟨decode_kept (ho i) output hl, ho⟩
  | json i a b => exact ⟨hl, ho⟩
  | parse line output =>
    simp only [World.step]
    rw [parse_world hok]
    exact ⟨parse_kept (hG line (by simp [decodedTexts])) output hl, ho⟩
  | readFile f output =>
    simp only [World.step]
    rw [readFile_world f output hok]
    exact ⟨readFile_kept hG output hl, ho⟩
  | readFolder fs =>
    simp only [World.step]
    rw [readFolder_world fs hok]
    cases fs with
    | none => exact ⟨hl, ho⟩
    | some fs => exact ⟨readFiles_kept hG hl, ho⟩
  | search f filters =>
    simp only [World.step]
    rw [search_world f filters hok]
    exact ⟨hl, ho⟩

theorem run_kept {G : Str → Prop} {ops : List Op} (hG : ∀ op ∈ ops, ∀ s ∈ decodedTexts op, Words G s) {w : World}
    (hok : w.OK) (hl : Kept G w.legs) (ho : ∀ i, LegsOf G (w.objs i)) : Kept G (w.run ops).1.legs := by
  induction ops generalizing w with
  | nil => exact hl
  | cons op ops ih =>
    obtain ⟨h1, h2⟩ := step_kept hok hl ho (hG op (by simp))
    exact ih (fun o hm => hG o (by simp [hm])) (step_ok hok op) h1 h2

/-- C112: After any history the library has kept, apart from the objects of the caller, only leg types: each once, each a
    word of one or two letters that is no documented code and occurs in a text that was given to be decoded. -/
theorem C112_kept (ops : List Op) : (after ops).reg = initReg ∧
    ∃ extra, (after ops).legs = legTypeDesc ++ extra ∧ (extra.map Prod.fst).Nodup ∧
      ∀ p ∈ extra, p.1 ∉ legTypeDesc.map Prod.fst ∧ p.2 = py!"<UNKNOWN>" ∧ isAlpha p.1 = true ∧ p.1.length ≤ 2 ∧
        ∃ op ∈ ops, ∃ s ∈ decodedTexts op, p.1 <:+: s :=
  ⟨(after_ok ops).reg, run_kept (G := fun k => isAlpha k = true ∧ k.length ≤ 2 ∧ ∃ op ∈ ops, ∃ s ∈ decodedTexts op, k <:+: s)
    (fun op ho s hs _ ha hk hi => ⟨ha, hk, op, ho, s, hs, hi⟩) init_ok ⟨[], (List.append_nil _).symm, by simp, by simp⟩
    fun _ => new_legsOf _⟩

omit v in
theorem short_words {A k : Str} (hk : k ≠ []) (hl : k.length ≤ 2) (h : ∀ c ∈ k, c ∈ A) :
    k ∈ A.map (fun c => [c]) ++ A.flatMap (fun c => A.map fun d => [c, d]) := by
  match k, hk, hl, h with
  | [c], _, _, h => exact List.mem_append_left _ (List.mem_map.2 ⟨c, h c (by simp), rfl⟩)
  | [c, d], _, _, h =>
    exact List.mem_append_right _ (List.mem_flatMap.2 ⟨c, h c (by simp), List.mem_map.2 ⟨d, h d (by simp), rfl⟩⟩)
  | c :: d :: e :: t, _, hl, _ => simp at hl

omit v in
theorem short_count {A : Str} {ks : List Str} (hn : ks.Nodup) (h : ∀ k ∈ ks, k ≠ [] ∧ k.length ≤ 2 ∧ ∀ c ∈ k, c ∈ A) :
    ks.length ≤ A.length + A.length * A.length := by
  have hsub : ks ⊆ A.map (fun c => [c]) ++ A.flatMap (fun c => A.map fun d => [c, d]) :=
    fun k hk => short_words (h k hk).1 (h k hk).2.1 (h k hk).2.2
  have hlen := (hn.subperm hsub).length_le
  have hm : (A.flatMap (fun c => A.map fun d => [c, d])).length = A.length * A.length := by
    rw [List.length_flatMap]
    simp
  rw [List.length_append, hm, List.length_map] at hlen
  exact hlen

theorem isAlpha_chars {k : Str} (h : isAlpha k = true) : k ≠ [] ∧ ∀ c ∈ k, PyUnicode.alpha c = true := by
  unfold isAlpha at h
  rw [Bool.and_eq_true] at h
  exact ⟨fun h0 => by rw [h0] at h; exact absurd h.1 (by simp), List.all_eq_true.1 h.2⟩

/-- C112: So the memory does not grow with the number of records: if the letters of all texts are among the characters `A`,
    there are at most `|A| + |A|²` entries more than at the beginning. -/
theorem C112_bound (ops : List Op) (A : List Nat)
    (hA : ∀ op ∈ ops, ∀ s ∈ decodedTexts op, ∀ c ∈ s, PyUnicode.alpha c = true → c ∈ A) :
    (after ops).legs.length ≤ legTypeDesc.length + (A.length + A.length * A.length) := by
  obtain ⟨-, e, he, hn, hp⟩ := C112_kept ops
  have := short_count (A := A) hn fun k hk => by
    obtain ⟨p, hpe, rfl⟩ := List.mem_map.1 hk
    obtain ⟨-, -, ha, hl, op, ho, s, hs, hi⟩ := hp p hpe
    exact ⟨(isAlpha_chars ha).1, hl, fun c hc => hA op ho s hs c (hi.subset hc) ((isAlpha_chars ha).2 c hc)⟩
  rw [List.length_map] at this
  rw [he, List.length_append]
  omega

omit v in
/-- the documented codes are two capital letters, each once -/
theorem documented_short : (legTypeDesc.map Prod.fst).Nodup ∧ ∀ k ∈ legTypeDesc.map Prod.fst,
    k ≠ [] ∧ k.length ≤ 2 ∧ ∀ c ∈ k, c ∈ List.range' 65 26 ++ List.range' 97 26 := by decide +kernel

/-- C112: if all texts are ASCII the table never has more than 2756 = 52 + 52² entries. -/
theorem C112_ascii (ops : List Op) (hA : ∀ op ∈ ops, ∀ s ∈ decodedTexts op, ∀ c ∈ s, c < 128) :
    (after ops).legs.length ≤ 2756 := by
  obtain ⟨-, e, he, hn, hp⟩ := C112_kept ops
  have := short_count (A := List.range' 65 26 ++ List.range' 97 26) (ks := (after ops).legs.map Prod.fst)
    (by
      rw [he, List.map_append, List.nodup_append]
      refine ⟨documented_short.1, hn, ?_⟩
      rintro a ha b hb rfl
      obtain ⟨p, hpe, rfl⟩ := List.mem_map.1 hb
      exact (hp p hpe).1 ha)
    (by
      rw [he, List.map_append]
      intro k hk
      rcases List.mem_append.1 hk with hk | hk
      · exact documented_short.2 k hk
      · obtain ⟨p, hpe, rfl⟩ := List.mem_map.1 hk
        obtain ⟨-, -, ha, hl, op, ho, s, hs, hi⟩ := hp p hpe
        refine ⟨(isAlpha_chars ha).1, hl, fun c hc => ?_⟩
        have hac := (isAlpha_chars ha).2 c hc
        rw [PyUnicode.alpha_ascii c (hA op ho s hs c (hi.subset hc))] at hac
        simp only [Bool.or_eq_true, Bool.and_eq_true, decide_eq_true_eq] at hac
        rw [List.mem_append, List.mem_range'_1, List.mem_range'_1]
        omega)
  simpa using this

end

section
attribute [local instance] Py.Tables.cpython311

/-- A record with the undocumented leg type adds one entry, however often it is decoded; the hypotheses are met. -/
example :
    let ops : List Op := [.read 0 Sample.sidBadLeg, .decode 0 false, .decode 0 true, .parse Sample.sidBadLeg false,
      .parse Sample.airport true]
    (after ops).legs = legTypeDesc ++ [(py!"X", py!"<UNKNOWN>")] ∧
      ∀ op ∈ ops, ∀ s ∈ decodedTexts op, ∀ c ∈ s, c < 128 := by decide +kernel

end
end Arinc
