import Verif.Lemmas.Decode
import Verif.Lemmas.Accept
import Verif.Spec.History
/-! Helper lemmas: `decode` on a table, histories of calls. -/
namespace Arinc
open Py Spec

/-! ### leg table -/

theorem lookup_append {α : Type} (l m : List (Str × α)) (k : Str) :
    (l ++ m).lookup k = match l.lookup k with | some v => some v | none => m.lookup k := by
  induction l with
  | nil => rfl
  | cons p l ih =>
    obtain ⟨k', v'⟩ := p
    rw [List.cons_append, List.lookup_cons, List.lookup_cons]
    cases k == k' <;> simp [ih]

theorem grown_init : Grown legTypeDesc := ⟨[], by simp, by simp⟩

theorem grown_lookup_known {legs : Legs} (h : Grown legs) {k v : Str}
    (hk : legTypeDesc.lookup k = some v) : legs.lookup k = some v := by
  obtain ⟨e, rfl, _⟩ := h
  rw [lookup_append, hk]

theorem grown_lookup_unknown {legs : Legs} (h : Grown legs) {k : Str}
    (hk : legTypeDesc.lookup k = none) : legs.lookup k = none ∨ legs.lookup k = some unknown := by
  obtain ⟨e, rfl, he⟩ := h
  rw [lookup_append, hk]
  simp only
  cases hl : e.lookup k with
  | none => exact .inl rfl
  | some v => exact .inr (by
    have : v = unknown := (he _ (lookup_mem hl)).2
    rw [this])

section
variable [PyUnicode]

theorem field_021_legs (v : Str) {legs : Legs} (h : Grown legs) :
    (field_021 v legs).res = (field_021 v legTypeDesc).res ∧
    (field_021 v legs).out = (field_021 v legTypeDesc).out ∧ Grown (field_021 v legs).legs := by
  unfold field_021
  simp only
  split
  · exact ⟨rfl, rfl, h⟩
  · split
    · exact ⟨rfl, rfl, h⟩
    · cases hk : legTypeDesc.lookup (strip v) with
      | some s =>
        rw [grown_lookup_known h hk]
        exact ⟨rfl, rfl, h⟩
      | none =>
        rcases grown_lookup_unknown h hk with h1 | h1
        · rw [h1]
          refine ⟨rfl, rfl, ?_⟩
          obtain ⟨e, rfl, he⟩ := h
          refine ⟨e ++ [(strip v, unknown)], by simp, ?_⟩
          intro p hp
          rcases List.mem_append.1 hp with hp | hp
          · exact he p hp
          · simp only [List.mem_singleton] at hp
            subst hp
            exact ⟨lookup_none_iff.1 hk, rfl⟩
        · rw [h1]; exact ⟨rfl, rfl, h⟩

theorem runDec_legs (fn : DecFn) (v : Str) (rec : RecInfo) {legs : Legs} (h : Grown legs) :
    (runDec fn v rec legs).res = (runDec fn v rec legTypeDesc).res ∧
    (runDec fn v rec legs).out = (runDec fn v rec legTypeDesc).out ∧
    Grown (runDec fn v rec legs).legs := by
  cases fn
  case f021 => exact field_021_legs v h
  case ident n => simp only [runDec]; split <;> exact ⟨rfl, rfl, h⟩
  all_goals exact ⟨rfl, rfl, h⟩

theorem decodeRows_legs (rec : RecInfo) (fs : List Field) {legs : Legs} (h : Grown legs) :
    (decodeRows rec fs legs).res = (decodeRows rec fs legTypeDesc).res ∧
    (decodeRows rec fs legs).out = (decodeRows rec fs legTypeDesc).out ∧
    Grown (decodeRows rec fs legs).legs := by
  induction fs generalizing legs with
  | nil => exact ⟨rfl, rfl, h⟩
  | cons f fs ih =>
    obtain ⟨h1, h2, h3⟩ := runDec_legs f.dec f.value rec h
    obtain ⟨_, _, g3⟩ := runDec_legs f.dec f.value rec grown_init
    simp only [decodeRows]
    rw [h1, h2]
    cases hr : (runDec f.dec f.value rec legTypeDesc).res with
    | error e => exact ⟨rfl, rfl, h3⟩
    | ok v =>
      obtain ⟨i1, i2, i3⟩ := ih h3
      obtain ⟨j1, j2, _⟩ := ih g3
      simp only
      refine ⟨?_, ?_, i3⟩
      · rw [i1, j1]
      · rw [i2, j2]

theorem decode_legs (r : Record) (output : Bool) {legs : Legs} (h : Grown legs) :
    (r.decode output legs).res = (r.decode output legTypeDesc).res ∧
    (r.decode output legs).out = (r.decode output legTypeDesc).out ∧
    Grown (r.decode output legs).legs := by
  obtain ⟨h1, h2, h3⟩ := decodeRows_legs r.info r.fields h
  unfold Record.decode
  simp only
  rw [h1, h2]
  cases (decodeRows r.info r.fields legTypeDesc).res with
  | error e => exact ⟨rfl, rfl, h3⟩
  | ok v => exact ⟨rfl, rfl, h3⟩

/-! ### rows -/

theorem field_065_out (v : Str) : NoTable (field_065 v).2 := by
  unfold field_065
  intro rows
  repeat' split
  all_goals simp

omit [PyUnicode] in
theorem field_118_out (v : Str) : NoTable (field_118 v).2 := by
  unfold field_118
  intro rows
  repeat' split
  all_goals simp

theorem field_034_out (v i r : Str) : NoTable (field_034 v i r).2 := by
  unfold field_034
  intro rows
  simp only
  repeat' split
  all_goals simp

theorem field_021_out (v : Str) (legs : Legs) : NoTable (field_021 v legs).out := by
  unfold field_021
  intro rows
  simp only
  repeat' split
  all_goals simp

theorem runDec_noTable (fn : DecFn) (v : Str) (rec : RecInfo) (legs : Legs) :
    NoTable (runDec fn v rec legs).out := by
  have nil : NoTable [] := fun rows => by simp
  cases fn
  case f021 => exact field_021_out v legs
  case ident n => simp only [runDec]; split <;> exact nil
  case f034 => exact field_034_out v _ _
  case f065 => exact field_065_out v
  case f118 => exact field_118_out v
  all_goals exact nil

omit [PyUnicode] in
theorem noTable_append {a b : List Event} (ha : NoTable a) (hb : NoTable b) : NoTable (a ++ b) := by
  intro rows h
  rcases List.mem_append.1 h with h | h
  · exact ha rows h
  · exact hb rows h

theorem decodeRows_noTable (rec : RecInfo) (fs : List Field) (legs : Legs) :
    NoTable (decodeRows rec fs legs).out := by
  induction fs generalizing legs with
  | nil => intro rows; simp [decodeRows]
  | cons f fs ih =>
    simp only [decodeRows]
    split
    · exact runDec_noTable _ _ _ _
    · exact noTable_append (runDec_noTable _ _ _ _) (ih _)

/-- a decoder on the pristine leg table -/
def decoded (rec : RecInfo) (f : Field) : Except Exc PyVal := (runDec f.dec f.value rec legTypeDesc).res

/-- the rows built from the fields -/
def RowsOf (rec : RecInfo) : List Field → List Row → Prop
  | [], [] => True
  | f :: fs, row :: rows => (row.field = f.name ∧ row.value = py!"'" ++ f.value ++ py!"'" ∧
      decoded rec f = .ok row.decoded) ∧ RowsOf rec fs rows
  | _, _ => False

theorem rowsOf_get {rec : RecInfo} {fs : List Field} {rows : List Row} (h : RowsOf rec fs rows) :
    rows.length = fs.length ∧ ∀ (i : Nat) (f : Field), fs[i]? = some f →
      ∃ v, decoded rec f = .ok v ∧ rows[i]? = some ⟨f.name, py!"'" ++ f.value ++ py!"'", v⟩ := by
  induction fs generalizing rows with
  | nil => cases rows with
    | nil => simp
    | cons row rows => cases h
  | cons f fs ih =>
    cases rows with
    | nil => cases h
    | cons row rows =>
      obtain ⟨⟨h1, h2, h3⟩, h4⟩ := h
      obtain ⟨i1, i2⟩ := ih h4
      refine ⟨by simp [i1], ?_⟩
      intro i g hg
      cases i with
      | zero =>
        simp only [List.getElem?_cons_zero, Option.some.injEq] at hg
        subst hg
        refine ⟨row.decoded, h3, ?_⟩
        rw [← h1, ← h2]; rfl
      | succ i =>
        simp only [List.getElem?_cons_succ] at hg ⊢
        exact i2 i g hg

theorem decodeRows_ok {rec : RecInfo} {fs : List Field} {rows : List Row} :
    (decodeRows rec fs legTypeDesc).res = .ok rows ↔ RowsOf rec fs rows := by
  induction fs generalizing rows with
  | nil =>
    cases rows with
    | nil => simp [decodeRows, RowsOf]
    | cons row rows => simp [decodeRows, RowsOf]
  | cons f fs ih =>
    have hg := (runDec_legs f.dec f.value rec grown_init).2.2
    simp only [decodeRows]
    cases hr : (runDec f.dec f.value rec legTypeDesc).res with
    | error e =>
      constructor
      · intro h; cases h
      · intro h
        cases rows with
        | nil => cases h
        | cons row rows =>
          have := h.1.2.2
          unfold decoded at this
          rw [hr] at this; cases this
    | ok v =>
      simp only
      rw [(decodeRows_legs rec fs hg).1]
      constructor
      · intro h
        cases hd : (decodeRows rec fs legTypeDesc).res with
        | error e => rw [hd] at h; cases h
        | ok rows' =>
          rw [hd] at h
          simp only [Except.map, Except.ok.injEq] at h
          subst h
          exact ⟨⟨rfl, rfl, hr⟩, ih.1 hd⟩
      · intro h
        cases rows with
        | nil => cases h
        | cons row rows =>
          obtain ⟨⟨a, b, c⟩, h2⟩ := h
          rw [ih.2 h2]
          unfold decoded at c
          rw [hr] at c
          cases row
          simp_all [Except.map]

theorem decodeRows_error {rec : RecInfo} {fs : List Field} {e : Exc} :
    (decodeRows rec fs legTypeDesc).res = .error e ↔
      ∃ pre f post, fs = pre ++ f :: post ∧ (∀ g ∈ pre, ∃ v, decoded rec g = .ok v) ∧
        decoded rec f = .error e := by
  induction fs with
  | nil => simp [decodeRows]
  | cons f fs ih =>
    have hg := (runDec_legs f.dec f.value rec grown_init).2.2
    simp only [decodeRows]
    cases hr : (runDec f.dec f.value rec legTypeDesc).res with
    | error e' =>
      constructor
      · intro h; cases h; exact ⟨[], f, fs, rfl, by simp, hr⟩
      · rintro ⟨pre, g, post, h1, h2, h3⟩
        cases pre with
        | nil =>
          simp only [List.nil_append, List.cons.injEq] at h1
          rw [← h1.1] at h3
          unfold decoded at h3
          rw [hr] at h3; cases h3; rfl
        | cons a pre =>
          simp only [List.cons_append, List.cons.injEq] at h1
          obtain ⟨v, hv⟩ := h2 a (by simp)
          rw [← h1.1] at hv
          unfold decoded at hv
          rw [hr] at hv; cases hv
    | ok v =>
      simp only
      rw [(decodeRows_legs rec fs hg).1]
      have : ((decodeRows rec fs legTypeDesc).res.map
          (fun x => (⟨f.name, py!"'" ++ f.value ++ py!"'", v⟩ : Row) :: x) = .error e) ↔
          (decodeRows rec fs legTypeDesc).res = .error e := by
        cases (decodeRows rec fs legTypeDesc).res <;> simp [Except.map]
      rw [this, ih]
      constructor
      · rintro ⟨pre, g, post, h1, h2, h3⟩
        refine ⟨f :: pre, g, post, by rw [h1]; rfl, ?_, h3⟩
        intro a ha
        rcases List.mem_cons.1 ha with rfl | ha
        · exact ⟨v, hr⟩
        · exact h2 a ha
      · rintro ⟨pre, g, post, h1, h2, h3⟩
        cases pre with
        | nil =>
          simp only [List.nil_append, List.cons.injEq] at h1
          rw [← h1.1] at h3
          unfold decoded at h3
          rw [hr] at h3; cases h3
        | cons a pre =>
          simp only [List.cons_append, List.cons.injEq] at h1
          exact ⟨pre, g, post, h1.2, fun b hb => h2 b (by simp [hb]), h3⟩

/-! ### fields of objects that were read -/

/-- every field has the width its decoder needs -/
def FieldsOK (r : Record) : Prop := ∀ f ∈ r.fields, widthOK f.dec f.value.length = true

omit [PyUnicode] in
theorem layout_fieldsOK {k : Str} {d : Definition} (h : registry.lookup k = some d) {l : Layout}
    (hl : l ∈ d.layouts) {line : Str} (ht : 132 ≤ line.length) :
    ∀ f ∈ l.map (FieldSpec.field line), widthOK f.dec f.value.length = true := by
  intro f hf
  obtain ⟨s, hs, rfl⟩ := List.mem_map.1 hf
  have h1 := List.all_eq_true.1 width_ok _ (lookup_mem h)
  have h2 := List.all_eq_true.1 (List.all_eq_true.1 h1 l hl) s hs
  have h3 := (layout_columns h hl hs).2.1
  simp only [FieldSpec.field]
  rw [pick_length (fun c hc => by have := h3 c hc; omega)]
  exact h2

omit [PyUnicode] in
theorem new_fieldsOK : FieldsOK Record.new := by
  intro f hf
  cases hf

theorem read_fieldsOK {r : Record} (h : FieldsOK r) (line : Str) : FieldsOK (r.read line).obj := by
  rcases read_cases r line with ⟨_, h'⟩ | ⟨_, _, h'⟩ | ⟨hrec, k, d, hres, hd, hf, h'⟩
  · rw [h']; exact h
  · rw [h']; exact h
  · rw [h']
    unfold Record.readAs
    simp only
    split
    · exact h
    · unfold Record.finish
      cases hs : (d.branch (r.enter line k d).primary).select line with
      | error e => exact h
      | ok l =>
        rcases select_mem hs with hm | hm
        · exact layout_fieldsOK hd (branch_layouts hm) (length_line hrec)
        · subst hm; intro f hf; cases hf

/-! ### registry -/

omit [PyUnicode] in
theorem lookup_initReg (k : Str) : initReg.lookup k = (registry.lookup k).map some := by
  unfold initReg
  induction registry with
  | nil => rfl
  | cons p l ih =>
    obtain ⟨k', v'⟩ := p
    rw [List.map_cons, List.lookup_cons, List.lookup_cons, ih]
    cases k == k' <;> rfl

omit [PyUnicode] in
theorem has_initReg (k : Str) : initReg.has k = inRegistry k := by
  unfold Reg.has inRegistry
  rw [lookup_initReg]
  cases registry.lookup k <;> rfl

theorem readDefinitionG_init (r : Record) (line : Str) (h : inRegistry r.ident = true) :
    Record.readDefinitionG initReg r line = (initReg, r.readDefinition line) := by
  unfold Record.readDefinitionG Record.readDefinition Reg.get
  unfold inRegistry at h
  rw [lookup_initReg]
  cases hd : registry.lookup r.ident with
  | none => rw [hd] at h; cases h
  | some d => rfl

theorem readG_init (r : Record) (line : Str) : r.readG initReg line = (initReg, r.read line) := by
  unfold Record.readG Record.read
  split
  · rfl
  · simp only
    cases (Slice.pair 4 12).eval line with
    | error e => rfl
    | ok k2 =>
      simp only [has_initReg]
      split
      · next h => exact readDefinitionG_init { r with raw := strip line, ident := slice line 4 6 } line h
      · split
        · next h => exact readDefinitionG_init { r with raw := strip line, ident := k2 } line h
        · rfl

/-! ### worlds -/

/-- what every reachable state satisfies -/
structure World.OK (w : World) : Prop where
  reg : w.reg = initReg
  legs : Grown w.legs
  objs : ∀ i, FieldsOK (w.objs i)

omit [PyUnicode] in
theorem init_ok : World.init.OK := ⟨rfl, grown_init, fun _ => new_fieldsOK⟩

theorem parse_world {w : World} (h : w.OK) (line : Str) (output : Bool) :
    w.parse line output =
      ({ w with legs := (Arinc.parse line output w.legs).legs },
       .parse (Arinc.parse line output w.legs).res (Arinc.parse line output w.legs).out) := by
  unfold World.parse Arinc.parse
  rw [h.reg, readG_init]
  simp only
  cases (Record.new.read line).res with
  | error e => simp
  | ok b =>
    cases b with
    | false => simp
    | true =>
      simp only
      cases (Record.decode (Record.new.read line).obj output w.legs).res <;> simp

theorem parse_legs (line : Str) (output : Bool) {legs : Legs} (h : Grown legs) :
    (Arinc.parse line output legs).res = (Arinc.parse line output legTypeDesc).res ∧
    (Arinc.parse line output legs).out = (Arinc.parse line output legTypeDesc).out ∧
    Grown (Arinc.parse line output legs).legs := by
  unfold Arinc.parse
  simp only
  cases (Record.new.read line).res with
  | error e => exact ⟨rfl, rfl, h⟩
  | ok b =>
    cases b with
    | false => exact ⟨rfl, rfl, h⟩
    | true =>
      obtain ⟨h1, h2, h3⟩ := decode_legs (Record.new.read line).obj output h
      simp only
      rw [h1, h2]
      cases (Record.decode (Record.new.read line).obj output legTypeDesc).res with
      | error e => exact ⟨rfl, rfl, h3⟩
      | ok v => exact ⟨rfl, rfl, h3⟩

theorem parseLines_world (output : Bool) (ls : List Str) {w : World} (h : w.OK) :
    World.parseLines output ls w =
      ({ w with legs := (Arinc.parseLines output ls w.legs).legs },
       (Arinc.parseLines output ls w.legs).res, (Arinc.parseLines output ls w.legs).out) := by
  induction ls generalizing w with
  | nil => rfl
  | cons l ls ih =>
    simp only [World.parseLines, Arinc.parseLines]
    rw [parse_world h]
    cases hr : (Arinc.parse l output w.legs).res with
    | error e => rfl
    | ok b =>
      simp only
      rw [ih (w := { w with legs := (Arinc.parse l output w.legs).legs })
        ⟨h.reg, (parse_legs l output h.legs).2.2, h.objs⟩]

theorem parseLines_legs (output : Bool) (ls : List Str) {legs : Legs} (h : Grown legs) :
    (Arinc.parseLines output ls legs).res = (Arinc.parseLines output ls legTypeDesc).res ∧
    (Arinc.parseLines output ls legs).out = (Arinc.parseLines output ls legTypeDesc).out ∧
    Grown (Arinc.parseLines output ls legs).legs := by
  induction ls generalizing legs with
  | nil => exact ⟨rfl, rfl, h⟩
  | cons l ls ih =>
    obtain ⟨h1, h2, h3⟩ := parse_legs l output h
    obtain ⟨_, _, g3⟩ := parse_legs l output grown_init
    simp only [Arinc.parseLines]
    rw [h1, h2]
    cases (Arinc.parse l output legTypeDesc).res with
    | error e => exact ⟨rfl, rfl, h3⟩
    | ok b =>
      obtain ⟨i1, i2, i3⟩ := ih h3
      obtain ⟨j1, j2, _⟩ := ih g3
      simp only
      exact ⟨by rw [i1, j1], by rw [i2, j2], i3⟩

theorem readFile_world (f : FileObj) (output : Bool) {w : World} (h : w.OK) :
    w.readFile f output =
      ({ w with legs := (Arinc.readFile f output w.legs).legs },
       (Arinc.readFile f output w.legs).res, (Arinc.readFile f output w.legs).out) := by
  unfold World.readFile Arinc.readFile
  cases f.readlines with
  | error e => rfl
  | ok ls => exact parseLines_world output ls h

theorem readFile_legs (f : FileObj) (output : Bool) {legs : Legs} (h : Grown legs) :
    (Arinc.readFile f output legs).res = (Arinc.readFile f output legTypeDesc).res ∧
    (Arinc.readFile f output legs).out = (Arinc.readFile f output legTypeDesc).out ∧
    Grown (Arinc.readFile f output legs).legs := by
  unfold Arinc.readFile
  cases f.readlines with
  | error e => exact ⟨rfl, rfl, h⟩
  | ok ls => exact parseLines_legs output ls h

theorem readFiles_world (fs : List FileObj) {w : World} (h : w.OK) :
    World.readFiles fs w =
      ({ w with legs := (Arinc.readFiles fs w.legs).legs },
       (Arinc.readFiles fs w.legs).res, (Arinc.readFiles fs w.legs).out) := by
  induction fs generalizing w with
  | nil => rfl
  | cons f fs ih =>
    simp only [World.readFiles, Arinc.readFiles]
    rw [readFile_world f true h]
    cases hr : (Arinc.readFile f true w.legs).res with
    | error e => rfl
    | ok b =>
      simp only
      rw [ih (w := { w with legs := (Arinc.readFile f true w.legs).legs })
        ⟨h.reg, (readFile_legs f true h.legs).2.2, h.objs⟩]

theorem readFiles_legs (fs : List FileObj) {legs : Legs} (h : Grown legs) :
    (Arinc.readFiles fs legs).res = (Arinc.readFiles fs legTypeDesc).res ∧
    (Arinc.readFiles fs legs).out = (Arinc.readFiles fs legTypeDesc).out ∧
    Grown (Arinc.readFiles fs legs).legs := by
  induction fs generalizing legs with
  | nil => exact ⟨rfl, rfl, h⟩
  | cons l ls ih =>
    obtain ⟨h1, h2, h3⟩ := readFile_legs l true h
    obtain ⟨_, _, g3⟩ := readFile_legs l true grown_init
    simp only [Arinc.readFiles]
    rw [h1, h2]
    cases (Arinc.readFile l true legTypeDesc).res with
    | error e => exact ⟨rfl, rfl, h3⟩
    | ok b =>
      obtain ⟨i1, i2, i3⟩ := ih h3
      obtain ⟨j1, j2, _⟩ := ih g3
      simp only
      exact ⟨by rw [i1, j1], by rw [i2, j2], i3⟩

theorem readFolder_world (fs : Option (List FileObj)) {w : World} (h : w.OK) :
    w.readFolder fs =
      ({ w with legs := (Arinc.readFolder fs w.legs).legs },
       (Arinc.readFolder fs w.legs).res, (Arinc.readFolder fs w.legs).out) := by
  cases fs with
  | none => rfl
  | some fs => exact readFiles_world fs h

theorem readFolder_legs (fs : Option (List FileObj)) {legs : Legs} (h : Grown legs) :
    (Arinc.readFolder fs legs).res = (Arinc.readFolder fs legTypeDesc).res ∧
    (Arinc.readFolder fs legs).out = (Arinc.readFolder fs legTypeDesc).out ∧
    Grown (Arinc.readFolder fs legs).legs := by
  cases fs with
  | none => exact ⟨rfl, rfl, h⟩
  | some fs => exact readFiles_legs fs h

theorem searchLines_world (filters : Filters) (ls : List Str) (n : Nat) {w : World} (h : w.OK) :
    World.searchLines filters ls n w =
      (w, (Arinc.searchLines filters ls n).1, (Arinc.searchLines filters ls n).2) := by
  induction ls generalizing n with
  | nil => rfl
  | cons l ls ih =>
    simp only [World.searchLines, Arinc.searchLines]
    rw [h.reg, readG_init]
    have hw : ({ w with reg := initReg } : World) = w := by rw [← h.reg]
    simp only [hw]
    cases (Record.new.read l).res with
    | error e => rfl
    | ok b =>
      cases b with
      | false => simp only; rw [ih]
      | true =>
        simp only
        cases filters.keep (Record.new.read l).obj.raw with
        | false => simp only [Bool.false_eq_true, if_false]; rw [ih]
        | true => simp only [if_true]; rw [ih]

theorem search_world (f : FileObj) (filters : Filters) {w : World} (h : w.OK) :
    w.search f filters = (w, (Arinc.search f filters).1, (Arinc.search f filters).2) := by
  unfold World.search Arinc.search
  cases f.readlines with
  | error e => rfl
  | ok ls => exact searchLines_world filters ls 0 h

theorem step_ok {w : World} (h : w.OK) (op : Op) : (w.step op).1.OK := by
  cases op with
  | new i =>
    refine ⟨h.reg, h.legs, ?_⟩
    intro j
    simp only [World.step, World.set]
    split
    · exact new_fieldsOK
    · exact h.objs j
  | read i line =>
    simp only [World.step, h.reg, readG_init]
    refine ⟨rfl, h.legs, ?_⟩
    intro j
    simp only [World.set]
    split
    · exact read_fieldsOK (h.objs i) line
    · exact h.objs j
  | decode i output =>
    exact ⟨h.reg, (decode_legs _ output h.legs).2.2, h.objs⟩
  | json i a b => exact h
  | parse line output =>
    simp only [World.step]
    rw [parse_world h]
    exact ⟨h.reg, (parse_legs line output h.legs).2.2, h.objs⟩
  | readFile f output =>
    simp only [World.step]
    rw [readFile_world f output h]
    exact ⟨h.reg, (readFile_legs f output h.legs).2.2, h.objs⟩
  | readFolder fs =>
    simp only [World.step]
    rw [readFolder_world fs h]
    exact ⟨h.reg, (readFolder_legs fs h.legs).2.2, h.objs⟩
  | search f filters =>
    simp only [World.step]
    rw [search_world f filters h]
    exact h

theorem run_ok {w : World} (h : w.OK) (ops : List Op) : (w.run ops).1.OK := by
  induction ops generalizing w with
  | nil => exact h
  | cons op ops ih => exact ih (step_ok h op)

theorem after_ok (ops : List Op) : (after ops).OK := run_ok init_ok ops

/-- a call's outcome and effect on its object depend only on that object -/
theorem step_object {w w' : World} (h : w.OK) (h' : w'.OK) {i : Nat} {op : Op}
    (ht : target op = some i) (ho : w.objs i = w'.objs i) :
    (w.step op).2 = (w'.step op).2 ∧ (w.step op).1.objs i = (w'.step op).1.objs i := by
  cases op with
  | new j => cases ht; simp [World.step, World.set]
  | read j line =>
    cases ht
    simp only [World.step, h.reg, h'.reg, readG_init, ho, World.set, if_true, and_self]
  | decode j output =>
    cases ht
    obtain ⟨a1, a2, _⟩ := decode_legs (w'.objs i) output h.legs
    obtain ⟨b1, b2, _⟩ := decode_legs (w'.objs i) output h'.legs
    refine ⟨?_, ho⟩
    simp only [World.step, ho]
    rw [a1, a2, b1, b2]
  | json j a b => cases ht; simp only [World.step, ho, and_self]
  | parse line output => cases ht
  | readFile f output => cases ht
  | readFolder fs => cases ht
  | search f filters => cases ht

theorem step_other {w : World} (h : w.OK) {i : Nat} {op : Op} (ht : target op ≠ some i) :
    (w.step op).1.objs i = w.objs i := by
  cases op with
  | new j =>
    have : i ≠ j := fun e => ht (by rw [e]; rfl)
    simp [World.step, World.set, this]
  | read j line =>
    have : i ≠ j := fun e => ht (by rw [e]; rfl)
    simp [World.step, World.set, this]
  | decode j output => rfl
  | json j a b => rfl
  | parse line output => simp only [World.step]; rw [parse_world h]
  | readFile f output => simp only [World.step]; rw [readFile_world f output h]
  | readFolder fs => simp only [World.step]; rw [readFolder_world fs h]
  | search f filters => simp only [World.step]; rw [search_world f filters h]

/-- the outcome of a module function does not depend on the state -/
theorem step_module {w w' : World} (h : w.OK) (h' : w'.OK) {op : Op} (ht : target op = none) :
    (w.step op).2 = (w'.step op).2 := by
  cases op with
  | new j => cases ht
  | read j line => cases ht
  | decode j output => cases ht
  | json j a b => cases ht
  | parse line output =>
    simp only [World.step]
    rw [parse_world h, parse_world h']
    obtain ⟨a1, a2, _⟩ := parse_legs line output h.legs
    obtain ⟨b1, b2, _⟩ := parse_legs line output h'.legs
    simp only
    rw [a1, a2, b1, b2]
  | readFile f output =>
    simp only [World.step]
    rw [readFile_world f output h, readFile_world f output h']
    obtain ⟨a1, a2, _⟩ := readFile_legs f output h.legs
    obtain ⟨b1, b2, _⟩ := readFile_legs f output h'.legs
    simp only
    rw [a1, a2, b1, b2]
  | readFolder fs =>
    simp only [World.step]
    rw [readFolder_world fs h, readFolder_world fs h']
    obtain ⟨a1, a2, _⟩ := readFolder_legs fs h.legs
    obtain ⟨b1, b2, _⟩ := readFolder_legs fs h'.legs
    simp only
    rw [a1, a2, b1, b2]
  | search f filters =>
    simp only [World.step]
    rw [search_world f filters h, search_world f filters h']

theorem run_object {w w' : World} (h : w.OK) (h' : w'.OK) {i : Nat} (ho : w.objs i = w'.objs i)
    (ops : List Op) :
    ((ops.zip (w.run ops).2).filter (fun p => onObject i p.1)).map Prod.snd
        = (w'.run (ops.filter (onObject i))).2 ∧
    (w.run ops).1.objs i = (w'.run (ops.filter (onObject i))).1.objs i := by
  induction ops generalizing w w' with
  | nil => exact ⟨rfl, ho⟩
  | cons op ops ih =>
    by_cases ht : target op = some i
    · obtain ⟨s1, s2⟩ := step_object h h' ht ho
      have hb : onObject i op = true := by simp [onObject, ht]
      obtain ⟨r1, r2⟩ := ih (step_ok h op) (step_ok h' op) s2
      rw [List.filter_cons_of_pos hb]
      refine ⟨?_, r2⟩
      show (((op, (w.step op).2) :: ops.zip ((w.step op).1.run ops).2).filter _).map Prod.snd = _
      rw [List.filter_cons_of_pos (p := fun p : Op × Outcome => onObject i p.1) hb, List.map_cons, r1,
        s1]
      rfl
    · have hb : ¬ onObject i op = true := by simp [onObject, ht]
      obtain ⟨r1, r2⟩ := ih (step_ok h op) h' ((step_other h ht).trans ho)
      rw [List.filter_cons_of_neg hb]
      refine ⟨?_, r2⟩
      show (((op, (w.step op).2) :: ops.zip ((w.step op).1.run ops).2).filter _).map Prod.snd = _
      rw [List.filter_cons_of_neg (p := fun p : Op × Outcome => onObject i p.1) hb, r1]

end
end Arinc
