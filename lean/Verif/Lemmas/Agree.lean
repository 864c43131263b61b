import Verif.Spec.Agree
import Verif.Lemmas.Over
/-!
# Interpreters that classify characters in the same way
-/
namespace Arinc
open Py Spec
variable {u v : PyUnicode}

theorem sameClass_ascii {c : Nat} (h : c < 128) : SameClass u v c :=
  ⟨(u.alpha_ascii c h).trans (v.alpha_ascii c h).symm, (u.numeric_ascii c h).trans (v.numeric_ascii c h).symm,
    (u.decimal_ascii c h).trans (v.decimal_ascii c h).symm⟩

theorem all_congr' {p q : Nat → Bool} {s : Str} (h : ∀ c ∈ s, p c = q c) : s.all p = s.all q := by
  induction s with
  | nil => rfl
  | cons c s ih =>
    simp only [List.all_cons]
    rw [h c (by simp), ih fun d hd => h d (by simp [hd])]

theorem agree_isNumeric {s : Str} (h : Over (SameClass u v) s) : @isNumeric u s = @isNumeric v s := by
  unfold isNumeric
  rw [all_congr' fun c hc => (h c hc).2.1]

theorem agree_isAlpha {s : Str} (h : Over (SameClass u v) s) : @isAlpha u s = @isAlpha v s := by
  unfold isAlpha
  rw [all_congr' fun c hc => (h c hc).1]

theorem agree_isAlnum {s : Str} (h : Over (SameClass u v) s) : @isAlnum u s = @isAlnum v s := by
  unfold isAlnum
  rw [all_congr' (q := fun c => v.alpha c || v.numeric c) fun c hc => by rw [(h c hc).1, (h c hc).2.1]]

theorem agree_toAscii {s : Str} (h : Over (SameClass u v) s) : s.map (@toAscii u) = s.map (@toAscii v) := by
  refine List.map_congr_left fun c hc => ?_
  unfold toAscii
  rw [(h c hc).2.2]

theorem agree_pyInt {s : Str} (h : Over (SameClass u v) s) : @pyInt u s = @pyInt v s := by
  unfold pyInt
  rw [agree_toAscii h]

theorem agree_pyFloat {s : Str} (h : Over (SameClass u v) s) : @pyFloat u s = @pyFloat v s := by
  unfold pyFloat
  rw [agree_toAscii h]

theorem agree_feet {s : Str} (h : Over (SameClass u v) s) : @feet u s = @feet v s := by
  unfold feet
  rw [agree_isNumeric h]

theorem bind_congr_ok {α β : Type} {a : Except Exc α} {f g : α → Except Exc β} (h : ∀ x, a = .ok x → f x = g x) :
    (a >>= f) = (a >>= g) := by
  cases a with
  | error e => rfl
  | ok x => exact h x rfl

theorem agree_field_027 {s : Str} (h : Over (SameClass u v) s) : @field_027 u s = @field_027 v s := by
  have hs := over_strip h
  unfold field_027
  simp only [agree_pyFloat hs, agree_pyFloat (over_sliceFrom hs 1)]

theorem agree_field_178 {s : Str} (h : Over (SameClass u v) s) : @field_178 u s = @field_178 v s := by
  unfold field_178
  refine bind_congr_ok fun x hx => ?_
  rw [agree_isAlpha (over_index hx h), agree_isNumeric (over_sliceFrom h 1)]

theorem agree_legTime {s : Str} (h : Over (SameClass u v) s) : @legTime u s = @legTime v s := by
  unfold legTime
  cases h0 : index s 0 with
  | error e => rfl
  | ok a =>
    simp only [agree_pyInt (over_index h0 h)]
    cases h1 : index s 1 with
    | error e => rfl
    | ok b => simp only [agree_pyInt (over_index h1 h)]

theorem agree_runDec {s : Str} (h : Over (SameClass u v) s) (fn : DecFn) (rec : RecInfo) (legs : Legs) :
    @runDec u fn s rec legs = @runDec v fn s rec legs := by
  have hs := over_strip h
  cases fn <;> try rfl
  all_goals
    simp only [runDec, field_008, field_009, field_021, field_022, field_023, field_024, field_025, field_026,
      agree_field_027 h, field_029, field_030, field_032, field_034, field_039, field_045, field_048, field_050,
      field_053, field_054, field_062, field_065, field_072, field_073, field_086, field_092, field_103, field_123,
      field_127, field_135, field_147, field_161, agree_field_178 h, field_184, field_209, field_240, field_269,
      agree_isAlnum hs, agree_isAlpha hs, agree_isNumeric hs, agree_isNumeric h, agree_pyFloat hs, agree_pyFloat h,
      agree_pyInt (over_slice h 0 2), agree_pyInt (over_sliceFrom h 1), agree_feet h, agree_legTime h]

theorem agree_decodeRows {fs : List Field} (h : ∀ f ∈ fs, Over (SameClass u v) f.value) (rec : RecInfo) (legs : Legs) :
    @decodeRows u rec fs legs = @decodeRows v rec fs legs := by
  induction fs generalizing legs with
  | nil => rfl
  | cons f fs ih =>
    unfold decodeRows
    rw [agree_runDec (h f (by simp))]
    simp only [ih fun g hg => h g (by simp [hg])]

/-- the characters of the fields of an object -/
def FieldsOver (P : Nat → Prop) (r : Record) : Prop := ∀ f ∈ r.fields, Over P f.value

theorem agree_decode {r : Record} (h : FieldsOver (SameClass u v) r) (output : Bool) (legs : Legs) :
    @Record.decode u r output legs = @Record.decode v r output legs := by
  unfold Record.decode
  rw [agree_decodeRows h]

theorem slice_over {P : Nat → Prop} {line s : Str} (h : Over P line) {sl : Slice} (hs : sl.eval line = .ok s) :
    Over P s := by
  cases sl with
  | «at» i => exact over_index hs h
  | range a b => cases hs; exact over_slice h a b
  | pair i j =>
    simp only [Slice.eval] at hs
    cases h1 : index line i with
    | error e => rw [h1] at hs; cases hs
    | ok a =>
      cases h2 : index line j with
      | error e => rw [h1, h2] at hs; cases hs
      | ok b =>
        rw [h1, h2] at hs
        cases hs
        exact over_append (over_index h1 h) (over_index h2 h)

theorem layout_over {P : Nat → Prop} {line : Str} (h : Over P line) {l : Layout} {fs : List Field}
    (hl : readLayout line l = .ok fs) : ∀ f ∈ fs, Over P f.value := by
  induction l generalizing fs with
  | nil => cases hl; intro f hf; cases hf
  | cons s l ih =>
    simp only [readLayout] at hl
    cases h1 : s.slice.eval line with
    | error e => rw [h1] at hl; cases hl
    | ok a =>
      cases h2 : readLayout line l with
      | error e => rw [h1, h2] at hl; cases hl
      | ok gs =>
        rw [h1, h2] at hl
        cases hl
        intro f hf
        rcases List.mem_cons.1 hf with rfl | hf
        · exact slice_over h h1
        · exact ih h2 f hf

theorem branch_over {P : Nat → Prop} {line : Str} (h : Over P line) {b : Branch} {fs : List Field}
    (hb : b.run line = .ok fs) : ∀ f ∈ fs, Over P f.value := by
  cases b with
  | always l => exact layout_over h hb
  | onApp sel cases other =>
    simp only [Branch.run] at hb
    cases h1 : sel.eval line with
    | error e => rw [h1] at hb; cases hb
    | ok a =>
      rw [h1] at hb
      simp only [bind, Except.bind] at hb
      split at hb
      · exact layout_over h hb
      · split at hb
        · cases hb; intro f hf; cases hf
        · cases hb
        · exact layout_over h hb

theorem readFields_over {P : Nat → Prop} {line : Str} (h : Over P line) {r : Record} (hr : FieldsOver P r)
    (d : Definition) : FieldsOver P (r.readFields d line).obj := by
  unfold Record.readFields
  split
  · exact hr
  · next fs hfs =>
    have : ∀ f ∈ fs, Over P f.value := by
      unfold Definition.read at hfs
      split at hfs <;> exact branch_over h hfs
    simp only
    split <;> exact this

theorem checkApplication_over {P : Nat → Prop} {line : Str} (h : Over P line) {r : Record} (hr : FieldsOver P r)
    (d : Definition) : FieldsOver P (r.checkApplication d line).obj := by
  unfold Record.checkApplication
  repeat' split
  all_goals first | exact hr | exact readFields_over h hr d

theorem readDefinition_over [PyUnicode] {P : Nat → Prop} {line : Str} (h : Over P line) {r : Record} (hr : FieldsOver P r) :
    FieldsOver P (r.readDefinition line).obj := by
  unfold Record.readDefinition
  split
  · exact hr
  · unfold Record.readWith
    simp only
    repeat' split
    all_goals first
      | exact hr
      | exact checkApplication_over h (by exact hr) _
      | exact readFields_over h (by exact hr) _

theorem read_over [PyUnicode] {P : Nat → Prop} {line : Str} (h : Over P line) {r : Record} (hr : FieldsOver P r) :
    FieldsOver P (r.read line).obj := by
  unfold Record.read
  simp only
  repeat' split
  all_goals first | exact hr | exact readDefinition_over h hr

theorem agree_validate {line : Str} (h : Over (SameClass u v) line) : @validate u line = @validate v line := by
  unfold validate
  simp only
  have hl : Over (SameClass u v) (lastN (strip line) 9) := over_sub (over_strip h) fun c hc => List.mem_of_mem_drop hc
  rw [agree_isNumeric hl]

theorem agree_readWith {r : Record} (h : Over (SameClass u v) r.raw) (d : Definition) (line : Str) :
    @Record.readWith u r d line = @Record.readWith v r d line := by
  unfold Record.readWith
  simp only
  split
  · split
    · rfl
    · next c hc => rw [agree_isAlnum (over_index hc h)]
  · rfl

theorem agree_readDefinition {r : Record} (h : Over (SameClass u v) r.raw) (line : Str) :
    @Record.readDefinition u r line = @Record.readDefinition v r line := by
  unfold Record.readDefinition
  split
  · rfl
  · exact agree_readWith h _ _

theorem agree_read {line : Str} (h : Over (SameClass u v) line) (r : Record) :
    @Record.read u r line = @Record.read v r line := by
  unfold Record.read
  rw [agree_validate h]
  simp only
  have h1 : ∀ k, @Record.readDefinition u { { r with raw := strip line } with ident := k } line =
      @Record.readDefinition v { { r with raw := strip line } with ident := k } line :=
    fun k => agree_readDefinition (over_strip h) line
  simp only [h1]

theorem agree_readG {line : Str} (h : Over (SameClass u v) line) (g : Reg) (r : Record) :
    @Record.readG u g r line = @Record.readG v g r line := by
  unfold Record.readG
  rw [agree_validate h]
  simp only
  have h1 : ∀ k, @Record.readDefinitionG u g { { r with raw := strip line } with ident := k } line =
      @Record.readDefinitionG v g { { r with raw := strip line } with ident := k } line := by
    intro k
    unfold Record.readDefinitionG
    split
    · rfl
    · rw [agree_readWith (by exact over_strip h)]
  simp only [h1]

theorem readG_over [PyUnicode] {P : Nat → Prop} {line : Str} (h : Over P line) (g : Reg) {r : Record}
    (hr : FieldsOver P r) : FieldsOver P (r.readG g line).2.obj := by
  unfold Record.readG
  simp only
  repeat' split
  all_goals try exact hr
  all_goals
    unfold Record.readDefinitionG
    split
    · exact hr
    · unfold Record.readWith
      simp only
      repeat' split
      all_goals first
        | exact hr
        | exact checkApplication_over h (by exact hr) _
        | exact readFields_over h (by exact hr) _

theorem new_over {P : Nat → Prop} : FieldsOver P Record.new := by intro f hf; cases hf

theorem agree_parse {line : Str} (h : Over (SameClass u v) line) (w : World) (output : Bool) :
    @World.parse u w line output = @World.parse v w line output := by
  unfold World.parse
  rw [agree_readG h]
  have hf := readG_over (P := SameClass u v) h w.reg new_over (r := Record.new)
  simp only [agree_decode hf]

theorem agree_parseLines {ls : List Str} (h : ∀ l ∈ ls, Over (SameClass u v) l) (w : World) (output : Bool) :
    @World.parseLines u output ls w = @World.parseLines v output ls w := by
  induction ls generalizing w with
  | nil => rfl
  | cons l ls ih =>
    unfold World.parseLines
    rw [agree_parse (h l (by simp))]
    simp only [ih fun k hk => h k (by simp [hk])]

theorem agree_searchLines {ls : List Str} (h : ∀ l ∈ ls, Over (SameClass u v) l) (filters : Filters) (n : Nat)
    (w : World) : @World.searchLines u filters ls n w = @World.searchLines v filters ls n w := by
  induction ls generalizing w n with
  | nil => rfl
  | cons l ls ih =>
    unfold World.searchLines
    rw [agree_readG (h l (by simp))]
    simp only [ih fun k hk => h k (by simp [hk])]

theorem universal_sub : ∀ {s : Str} {c : Nat}, c ∈ universalNewlines s → c ∈ s ∨ c = 10
  | s, c, h => by
    induction s using universalNewlines.induct
    all_goals
      rw [universalNewlines.eq_def] at h
      simp_all
    all_goals grind

theorem splitKeep_sub {s l : Str} (hl : l ∈ splitKeepLF s) {c : Nat} (hc : c ∈ l) : c ∈ s := by
  induction s generalizing l with
  | nil => cases hl
  | cons d s ih =>
    unfold splitKeepLF at hl
    grind

theorem readlines_over {P : Nat → Prop} (hP : P 10) {s : Str} (h : Over P s) : ∀ l ∈ readlines s, Over P l := by
  intro l hl c hc
  rcases universal_sub (splitKeep_sub hl hc) with h1 | rfl
  · exact h c h1
  · exact hP

theorem agree_readFile {f : FileObj} (h : ∀ s, f = .text s → Over (SameClass u v) s) (w : World) (output : Bool) :
    @World.readFile u w f output = @World.readFile v w f output := by
  unfold World.readFile
  cases f with
  | text s => exact agree_parseLines (readlines_over (sameClass_ascii (by decide)) (h s rfl)) w output
  | unopenable => rfl
  | undecodable => rfl

theorem agree_readFiles {fs : List FileObj} (h : ∀ s, .text s ∈ fs → Over (SameClass u v) s) (w : World) :
    @World.readFiles u fs w = @World.readFiles v fs w := by
  induction fs generalizing w with
  | nil => rfl
  | cons f fs ih =>
    unfold World.readFiles
    rw [agree_readFile (fun s hs => h s (by simp [hs]))]
    simp only [ih fun s hs => h s (by simp [hs])]

theorem agree_step {op : Op} (h : ∀ s ∈ textsOf op, Over (SameClass u v) s) {w : World}
    (hw : ∀ i, FieldsOver (SameClass u v) (w.objs i)) : @World.step u w op = @World.step v w op := by
  cases op with
  | new i => rfl
  | read i line =>
    have hl : Over (SameClass u v) line := h line (by simp [textsOf])
    unfold World.step; simp only
    rw [agree_readG hl]
  | decode i output =>
    unfold World.step; simp only
    simp only [agree_decode (hw i)]
  | json i output sl => rfl
  | parse line output => exact agree_parse (h line (by simp [textsOf])) w output
  | readFile f output =>
    unfold World.step; simp only
    rw [agree_readFile (fun s hs => h s (by subst hs; simp [textsOf]))]
  | readFolder es =>
    unfold World.step World.readFolder; simp only
    cases es with
    | none => rfl
    | some fs =>
      simp only
      rw [agree_readFiles (fun s hs => h s (by
        simp only [textsOf, List.mem_filterMap]; exact ⟨_, hs, rfl⟩))]
  | search f filters =>
    unfold World.step World.search; simp only
    cases f with
    | text s =>
      simp only [FileObj.readlines]
      rw [agree_searchLines (readlines_over (sameClass_ascii (by decide)) (h s (by simp [textsOf])))]
    | unopenable => rfl
    | undecodable => rfl

theorem set_over {P : Nat → Prop} {w : World} (hw : ∀ i, FieldsOver P (w.objs i)) {i : Nat} {r : Record}
    (hr : FieldsOver P r) : ∀ j, FieldsOver P ((w.set i r).objs j) := by
  intro j
  simp only [World.set]
  split
  · exact hr
  · exact hw j

theorem parse_objs [PyUnicode] (w : World) (line : Str) (output : Bool) : (w.parse line output).1.objs = w.objs := by
  unfold World.parse
  simp only
  repeat' split
  all_goals rfl

theorem parseLines_objs [PyUnicode] (output : Bool) (ls : List Str) (w : World) :
    (World.parseLines output ls w).1.objs = w.objs := by
  induction ls generalizing w with
  | nil => rfl
  | cons l ls ih =>
    have h := parse_objs w l output
    unfold World.parseLines
    split
    · next h1 => rw [h1] at h; rw [← h]; exact ih _
    · next h1 => rw [h1] at h; exact h
    · next h1 => rw [h1] at h; exact h

theorem readFile_objs [PyUnicode] (w : World) (f : FileObj) (output : Bool) :
    (w.readFile f output).1.objs = w.objs := by
  unfold World.readFile
  split
  · rfl
  · exact parseLines_objs output _ w

theorem readFiles_objs [PyUnicode] (fs : List FileObj) (w : World) : (World.readFiles fs w).1.objs = w.objs := by
  induction fs generalizing w with
  | nil => rfl
  | cons f fs ih =>
    have h := readFile_objs w f true
    unfold World.readFiles
    split
    · next h1 => rw [h1] at h; rw [← h]; exact ih _
    · next h1 => rw [h1] at h; exact h

theorem searchLines_objs [PyUnicode] (filters : Filters) (ls : List Str) (n : Nat) (w : World) :
    (World.searchLines filters ls n w).1.objs = w.objs := by
  induction ls generalizing w n with
  | nil => rfl
  | cons l ls ih =>
    unfold World.searchLines
    simp only
    repeat' split
    all_goals first | rfl | exact ih _ _

theorem step_over [PyUnicode] {P : Nat → Prop} {op : Op} (h : ∀ s ∈ textsOf op, Over P s) {w : World}
    (hw : ∀ i, FieldsOver P (w.objs i)) : ∀ i, FieldsOver P ((w.step op).1.objs i) := by
  cases op with
  | new i => exact set_over hw new_over
  | read i line =>
    exact set_over (by exact hw) (readG_over (h line (by simp [textsOf])) _ (hw i))
  | decode i output => exact hw
  | json i output sl => exact hw
  | parse line output => unfold World.step; rw [parse_objs]; exact hw
  | readFile f output => unfold World.step; simp only; rw [readFile_objs]; exact hw
  | readFolder es =>
    unfold World.step World.readFolder; simp only
    cases es with
    | none => exact hw
    | some fs => simp only; rw [readFiles_objs]; exact hw
  | search f filters =>
    unfold World.step World.search; simp only
    cases f with
    | text s => simp only [FileObj.readlines]; rw [searchLines_objs]; exact hw
    | unopenable => exact hw
    | undecodable => exact hw

theorem agree_run {ops : List Op} (h : ∀ op ∈ ops, ∀ s ∈ textsOf op, Over (SameClass u v) s) {w : World}
    (hw : ∀ i, FieldsOver (SameClass u v) (w.objs i)) : @World.run u w ops = @World.run v w ops := by
  induction ops generalizing w with
  | nil => rfl
  | cons op ops ih =>
    have h1 := agree_step (h op (by simp)) hw
    have h2 : ∀ i, FieldsOver (SameClass u v) ((@World.step v w op).1.objs i) := step_over (h op (by simp)) hw
    unfold World.run
    rw [h1]
    simp only [ih (fun o ho => h o (by simp [ho])) h2]

end Arinc
