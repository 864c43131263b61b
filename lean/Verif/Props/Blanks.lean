import Verif.Spec.Blanks
import Verif.Lemmas.Columns
import Verif.Spec.Columns
import Verif.Props.Values
import Verif.Props.Shape
import Verif.Props.EndToEnd
import Verif.Py.Cpython311
/-!
# C117: blanks in front of a record (and C43 for such lines)
-/
namespace Arinc
open Py Spec

theorem supported_heads : supported.all (fun k => match k with | [] => false | c :: _ => !isSpace c) = true := by decide

theorem col_displaced {pre t post : Str} {c : Nat} (h : c < 132) (ht : t.length = 132) :
    col (pre ++ t ++ post) c = if c < pre.length then col pre c else col t (c - pre.length) := by
  simp only [col, List.append_assoc]
  split
  · next hc => rw [List.getElem?_append_left hc]
  · next hc =>
    rw [List.getElem?_append_right (by omega), List.getElem?_append_left (by omega)]

theorem pick_displaced {pre t post : Str} {cs : List Nat} (h : ∀ c ∈ cs, c < 132) (ht : t.length = 132) :
    pick (pre ++ t ++ post) cs = displaced pre t cs := by
  induction cs with
  | nil => rfl
  | cons c cs ih =>
    have ih := ih fun c hc => h c (by simp [hc])
    simp only [pick, displaced, List.flatMap_cons] at ih ⊢
    rw [col_displaced (h c (by simp)) ht, ih]

/-- the section stands in column 5, so there are at most four blanks -/
theorem lead_le {pre t post k : Str} (hs : AllSpace pre) (hr : Resolves (pre ++ t ++ post) k) : pre.length ≤ 4 := by
  apply Nat.le_of_not_lt
  intro hlt
  have hcol : (pre ++ t ++ post)[4]? = some pre[4] := by
    rw [List.append_assoc, List.getElem?_append_left hlt, List.getElem?_eq_getElem hlt]
  have hsp : isSpace pre[4] = true := hs _ (List.getElem_mem hlt)
  have key : ∀ w : Str, pre[4] :: w ∉ supported := by
    intro w hw
    have := List.all_eq_true.1 supported_heads _ hw
    simp only [hsp] at this
    cases this
  have hc : ∀ (s : Str) (x : Nat), s[4]? = some x → ∃ w, cols s 4 6 = x :: w := by
    intro s x hx
    obtain ⟨h4, hx⟩ := List.getElem?_eq_some_iff.1 hx
    refine ⟨(s.drop 5).take 1, ?_⟩
    rw [cols, List.drop_eq_getElem_cons h4, hx]
    rfl
  cases hr with
  | byPair h =>
    obtain ⟨w, hw⟩ := hc _ _ hcol
    rw [hw] at h
    exact key w h
  | bySplit _ h =>
    rw [col, hcol] at h
    exact key _ h

section
variable [PyUnicode]

/-- C117: For all accepted lines, with or without blanks in front: there are at most four, and the fields show the columns
    that the table of C04 gives, but of the line with its blanks, so each shows what stands that many columns to the left
    of where it should be. (For no blanks this is C04.) The text of the record is kept without the blanks. -/
theorem C117_displaced :
    ∃ F : Str → Bool → Str → List (Str × List Nat),
      (∀ k p a, ∀ nc ∈ F k p a, nc.2 ≠ [] ∧ (∀ c ∈ nc.2, c < 132) ∧
        ((∃ lo n, nc.2 = List.range' lo n) ∨ nc.2 = [4, 12])) ∧
      ∀ (r : Record) (line : Str), (r.read line).res = .ok true →
        let o := (r.read line).obj
        ∃ pre post, line = pre ++ o.raw ++ post ∧ AllSpace pre ∧ AllSpace post ∧ pre.length ≤ 4 ∧ IsRecord o.raw ∧
          o.fields.map (fun f => (f.name, f.value)) =
            (F o.ident o.primary (displaced pre o.raw (appColumns o.ident))).map
              (fun nc => (nc.1, displaced pre o.raw nc.2)) := by
  refine ⟨fun k p a => (layoutOf k p a).map (fun s => (s.name, s.slice.columns)), ?_, ?_⟩
  · intro k p a nc hnc
    simp only [List.mem_map] at hnc
    obtain ⟨s, hs, rfl⟩ := hnc
    exact layoutOf_columns hs
  · intro r line h
    obtain ⟨k, d, l, ha⟩ := accepted h
    obtain ⟨pre, post, hl, h1, h2⟩ := padded_strip line
    have hraw : (r.read line).obj.raw = strip line := by rw [ha.read]; rfl
    have hid : (r.read line).obj.ident = k := by rw [ha.read]; rfl
    have h132 := ha.isRec.length
    simp only [hraw, hid]
    refine ⟨pre, post, hl, h1, h2, lead_le h1 (hl ▸ resolve_iff.1 ha.res), ha.isRec, ?_⟩
    have hp : ∀ {cs : List Nat}, (∀ c ∈ cs, c < 132) → displaced pre (strip line) cs = pick line cs := by
      intro cs hcs
      rw [← pick_displaced (post := post) hcs h132, ← hl]
    rw [hp (appColumns_lt k)]
    have hsel := select_layoutOf ha.lookup ha.select
    rw [ha.read]
    simp only [primary_fields, List.map_map]
    rw [← hsel]
    apply List.map_congr_left
    intro s hs
    simp only [Function.comp, FieldSpec.field, Prod.mk.injEq, true_and]
    have hb := (ha.facts.layouts l ha.mem).1
    exact (hp (columns_lt (List.all_eq_true.1 hb s hs))).symm


theorem displaced_range {pre t : Str} {lo hi : Nat} (h1 : pre.length ≤ lo) (h2 : lo ≤ hi) (h3 : hi ≤ t.length) :
    displaced pre t (List.range' lo (hi - lo)) = cols t (lo - pre.length) (hi - pre.length) := by
  rw [cols_eq_pick (by omega) (by omega)]
  have e : List.range' lo (hi - lo) = (List.range' (lo - pre.length) (hi - pre.length - (lo - pre.length))).map
      (· + pre.length) := by
    rw [show hi - pre.length - (lo - pre.length) = hi - lo by omega]
    apply List.ext_getElem
    · simp
    · intro i h1 h2; simp; omega
  rw [e, displaced, pick, List.flatMap_map]
  congr 1
  funext c
  rw [if_neg (by omega), Nat.add_sub_cancel]

/-- C117: The first field and the last two: with blanks in front the record type shown is a blank, and the last `n` digits of
    the file record number are shown as the beginning of the cycle date. -/
theorem C117_envelope (r : Record) (line : Str) (h : (r.read line).res = .ok true) :
    ∃ (pre post t : Str) (mid : List (Str × Str)), line = pre ++ t ++ post ∧ AllSpace pre ∧ AllSpace post ∧ IsRecord t ∧
      pre.length ≤ 4 ∧
      (r.read line).obj.fields.map (fun f => (f.name, f.value)) =
        (py!"Record Type", cols (pre ++ t) 0 1) :: mid ++
          [(py!"File Record No", cols t (123 - pre.length) (128 - pre.length)),
           (py!"Cycle Date", cols t (128 - pre.length) (132 - pre.length))] := by
  obtain ⟨k, d, l, ha⟩ := accepted h
  obtain ⟨mid, hm⟩ := envelope ha.lookup ha.mem
  obtain ⟨pre, post, hl, h1, h2⟩ := padded_strip line
  have h132 := ha.isRec.length
  have h4 := lead_le h1 (hl ▸ resolve_iff.1 ha.res)
  have hp : ∀ {lo hi : Nat}, pre.length ≤ lo → lo ≤ hi → hi ≤ 132 →
      pick line (List.range' lo (hi - lo)) = cols (strip line) (lo - pre.length) (hi - pre.length) := by
    intro lo hi a b c
    rw [← displaced_range a b (by omega), ← pick_displaced (post := post) (by
      intro c hc; rw [List.mem_range'_1] at hc; omega) h132, ← hl]
  refine ⟨pre, post, strip line, mid.map (fun s => (s.name, pick line s.slice.columns)), hl, h1, h2, ha.isRec, h4, ?_⟩
  rw [ha.read]
  simp only [hm, List.map_cons, List.map_append, List.map_nil, FieldSpec.field, List.map_map, Function.comp_def]
  have g0 : pick line (Slice.at 0).columns = cols (pre ++ strip line) 0 1 := by
    have e : pick line (Slice.at 0).columns = cols line 0 1 := by
      rw [cols_eq_pick (by rw [hl]; simp; omega) (by omega)]; rfl
    rw [e]
    conv => lhs; rw [hl]
    rw [cols, cols, List.drop_zero, List.drop_zero, List.take_append_of_le_length (by simp; omega)]
  have g1 : pick line (Slice.range 123 128).columns = _ := hp (lo := 123) (hi := 128) (by omega) (by omega) (by omega)
  have g2 : pick line (Slice.range 128 132).columns = _ := hp (lo := 128) (hi := 132) (by omega) (by omega) (by omega)
  rw [g0, g1, g2]

/-- C117: So the field 'Record Type' tells: it shows S or T iff the record stands at the beginning of the line. -/
theorem C117_detect (r : Record) (line : Str) (h : (r.read line).res = .ok true) :
    ∃ f, (r.read line).obj.fields.head? = some f ∧ f.name = py!"Record Type" ∧
      ((f.value = py!"S" ∨ f.value = py!"T") ↔ NoLeadingSpace line) := by
  obtain ⟨pre, post, t, mid, hl, h1, h2, ht, h4, hf⟩ := C117_envelope r line h
  cases hfs : (r.read line).obj.fields with
  | nil => rw [hfs] at hf; cases hf
  | cons f fs =>
    rw [hfs] at hf
    simp only [List.map_cons, List.cons_append, List.cons.injEq, Prod.mk.injEq] at hf
    obtain ⟨⟨hn, hv⟩, _⟩ := hf
    refine ⟨f, rfl, hn, ?_⟩
    rw [hv]
    have ht0 : ∃ c u, t = c :: u := by
      cases t with
      | nil => have := ht.length; cases this
      | cons c u => exact ⟨c, u, rfl⟩
    obtain ⟨c, u, rfl⟩ := ht0
    cases pre with
    | nil =>
      have hc : c = 83 ∨ c = 84 := by
        rcases ht.first with h | h <;> (simp at h; omega)
      have e : cols ([] ++ c :: u) 0 1 = [c] := rfl
      rw [e, hl]
      constructor
      · intro _ x hx
        simp at hx
        subst hx
        rcases hc with rfl | rfl <;> rfl
      · intro _
        rcases hc with rfl | rfl
        · exact .inl rfl
        · exact .inr rfl
    | cons x pre =>
      have e : cols (x :: pre ++ c :: u) 0 1 = [x] := rfl
      rw [e]
      have hx : isSpace x = true := h1 x (by simp)
      constructor
      · rintro (h | h) <;> (cases h; cases hx)
      · intro hn
        have := hn x (by rw [hl]; rfl)
        rw [hx] at this
        cases this

/-- C117: A record with blanks in front is never shown as a table: decoding it raises `ValueError` at the first field, and
    nothing is printed. -/
theorem C117_decode (r : Record) (line : Str) (h : (r.read line).res = .ok true) (hn : ¬ NoLeadingSpace line)
    (output : Bool) (legs : Legs) : (r.read line).obj.decode output legs = ⟨.error .valueError, [], legs⟩ := by
  obtain ⟨f, hf, hname, hv⟩ := C117_detect r line h
  have hd : f.dec = .f002 := by
    obtain ⟨k, d, l, ha⟩ := accepted h
    obtain ⟨mid, hm⟩ := envelope ha.lookup ha.mem
    rw [accepted_fields ha, hm] at hf
    cases hf
    rfl
  cases hfs : (r.read line).obj.fields with
  | nil => rw [hfs] at hf; cases hf
  | cons g fs =>
    rw [hfs] at hf
    cases hf
    unfold Record.decode
    rw [hfs]
    simp only [decodeRows]
    have hr : runDec f.dec f.value (r.read line).obj.info legs = ⟨.error .valueError, [], legs⟩ := by
      rw [hd]
      show quiet legs (field_002 f.value) = _
      unfold field_002
      rw [if_neg fun e => hn (hv.1 (.inl e)), if_neg fun e => hn (hv.1 (.inr e))]
      rfl
    rw [hr]

/-- C117: So if there is a table, the record stood at the beginning of the line: then C04 and C05 say what its values are. -/
theorem C117_table (r : Record) (line : Str) (h : (r.read line).res = .ok true) {output : Bool} {legs : Legs}
    {rows : List Row} (hr : ((r.read line).obj.decode output legs).res = .ok rows) : NoLeadingSpace line := by
  apply Classical.byContradiction
  intro hn
  rw [C117_decode r line h hn] at hr
  cases hr

/-- C117: `parse` returns `True` only for records at the beginning of the line; it raises `ValueError` for those accepted
    with blanks in front. -/
theorem C117_parse (line : Str) (output : Bool) (legs : Legs) (hn : ¬ NoLeadingSpace line) :
    ((Record.new.read line).res = .ok true → parse line output legs = ⟨.error .valueError, [], legs⟩) ∧
    (parse line output legs).res ≠ .ok true := by
  have key : (Record.new.read line).res = .ok true → parse line output legs = ⟨.error .valueError, [], legs⟩ := by
    intro h
    obtain ⟨t, k, fs, hi⟩ := read_isLine h
    obtain ⟨_, _, _, _, ho⟩ := C75_read hi
    unfold parse
    simp only [h, C117_decode _ line h hn, ho]
    rfl
  refine ⟨key, fun h => ?_⟩
  cases hr : (Record.new.read line).res with
  | error e => unfold parse at h; simp only [hr] at h; cases h
  | ok b =>
    cases b with
    | false => unfold parse at h; simp only [hr] at h; cases h
    | true => rw [key hr] at h; cases h

/-- C70: the last field of an accepted line, the cycle date, has four columns and no whitespace in them, also if there are
    blanks in front of the record. -/
theorem C70_cycle_date (r : Record) (line : Str) (h : (r.read line).res = .ok true) :
    ∃ f, (r.read line).obj.fields.getLast? = some f ∧ f.name = py!"Cycle Date" ∧ f.value.length = 4 ∧
      ∀ c ∈ f.value, isSpace c = false := by
  obtain ⟨pre, post, t, mid, _, _, _, ht, h4, hf⟩ := C117_envelope r line h
  have hl := congrArg List.getLast? hf
  rw [List.getLast?_map, List.getLast?_append] at hl
  obtain ⟨f, h1, h2⟩ := Option.map_eq_some_iff.1 (hl.trans rfl)
  injection h2 with h2 h3
  have hlen := ht.length
  refine ⟨f, h1, h2, ?_, fun c hc => ?_⟩
  · rw [h3, cols, List.length_take, List.length_drop]
    omega
  · rw [h3, cols] at hc
    apply PyUnicode.numeric_not_space
    apply ht.tail
    have hd := List.mem_of_mem_take hc
    rw [show 128 - pre.length = 123 + (5 - pre.length) by omega, ← List.drop_drop] at hd
    exact List.mem_of_mem_drop hd

/-- C43: every accepted line of ASCII characters, also with blanks in front, has in its last field, the cycle date, four
    digits of which the first two give the year: decoding it never raises. -/
theorem C43_accepted {r : Record} {line : Str} (hr : (r.read line).res = .ok true) (ha : Ascii line) :
    ∃ f, (r.read line).obj.fields.getLast? = some f ∧ f.name = py!"Cycle Date" ∧ f.dec = .f032 ∧
      ∃ Y d rr, 1951 ≤ Y ∧ Y ≤ 2050 ∧ Decimal d Y ∧ (∃ n, Numeral rr n) ∧ rr.length = 2 ∧
        f.value = d.drop 2 ++ rr ∧ Shows f.dec f.value (d ++ py!", Release " ++ rr) := by
  obtain ⟨k, d, l, hacc⟩ := accepted hr
  obtain ⟨mid, hl⟩ := envelope hacc.lookup hacc.mem
  refine ⟨FieldSpec.field line ⟨py!"Cycle Date", .range 128 132, .f032⟩, ?_, rfl, rfl, ?_⟩
  · rw [accepted_fields hacc, hl, List.map_append, List.getLast?_append]
    rfl
  · have hsa : ∀ c ∈ strip line, c < 128 := fun c hc => ha c (mem_of_mem_strip hc)
    obtain ⟨pre, post, hline, h1, h2⟩ := padded_strip line
    have h132 := hacc.isRec.length
    have h4 := lead_le h1 (hline ▸ resolve_iff.1 hacc.res)
    have hval : (FieldSpec.field line ⟨py!"Cycle Date", .range 128 132, .f032⟩).value =
        pick (strip line) (List.range' (128 - pre.length) 4) := by
      have e : (FieldSpec.field line ⟨py!"Cycle Date", .range 128 132, .f032⟩).value =
          pick line (List.range' 128 (132 - 128)) := rfl
      rw [e]
      conv => lhs; rw [hline]
      rw [pick_displaced (by intro c hc; rw [List.mem_range'_1] at hc; omega) h132,
        displaced_range (by omega) (by omega) (by omega), cols_eq_pick (by omega) (by omega),
        show 132 - pre.length - (128 - pre.length) = 4 by omega]
    have hcs : ∀ i ∈ List.range' (128 - pre.length) 4, 123 ≤ i ∧ i < 132 := by
      intro i hi; rw [List.mem_range'_1] at hi; omega
    have hdig := pick_tail_digits hacc.isRec hsa (cs := List.range' (128 - pre.length) 4) (by simp) hcs
    have hlen := pick_length (t := strip line) (cs := List.range' (128 - pre.length) 4)
      (by intro c hc; rw [h132]; exact (hcs c hc).2)
    rw [hval]
    rw [List.length_range'] at hlen
    clear hval hcs
    generalize List.range' (128 - pre.length) 4 = cs at hdig hlen
    generalize pick (strip line) cs = u at hdig hlen
    have hy : Numeral (u.take 2) (digitSum (u.take 2)) :=
      ⟨fun h0 => by have := congrArg List.length h0; rw [List.length_take, List.length_nil] at this; omega,
        fun c hc => isDigit_iff.1 (hdig.2 c (List.mem_of_mem_take hc)), rfl⟩
    obtain ⟨Y, dd, h1, h2, h3, h4, h5⟩ := C43_year (v := u) (List.take_append_drop 2 u).symm hy
      (by rw [List.length_take]; omega)
    refine ⟨Y, dd, u.drop 2, h1, h2, h4, ⟨_, ?_, fun c hc => isDigit_iff.1 (hdig.2 c (List.mem_of_mem_drop hc)), rfl⟩,
      by rw [List.length_drop]; omega, ?_, h5⟩
    · intro h0; have := congrArg List.length h0; rw [List.length_drop, List.length_nil] at this; omega
    · have hdl : dd.length = 4 := by
        have a := decimal_length_lt h4 (d := 4) (by omega) (by omega)
        have b := digitSum_lt h4.1.2.1
        rw [h4.1.2.2] at b
        rcases Nat.lt_or_ge dd.length 4 with h | h
        · have : 10 ^ dd.length ≤ 10 ^ 3 := Nat.pow_le_pow_right (by omega) (by omega)
          omega
        · omega
      have : dd.drop 2 = u.take 2 := by
        apply numeral_unique_length
        · exact fun c hc => h4.1.2.1 c (List.mem_of_mem_drop hc)
        · exact hy.2.1
        · rw [List.length_drop, List.length_take]; omega
        · rw [hy.2.2, ← h3, ← h4.1.2.2]
          conv => rhs; rw [← List.take_append_drop 2 dd]
          rw [digitSum_append, List.length_drop, hdl]
          have hlt := digitSum_lt (s := dd.drop 2) (fun c hc => h4.1.2.1 c (List.mem_of_mem_drop hc))
          rw [List.length_drop, hdl] at hlt
          omega
      rw [this, List.take_append_drop]
end

section
attribute [local instance] Py.Tables.cpython311

/-- a VHF navaid record that can also be read with a blank in front of it -/
def twoWays : Str := (Sample.vhf.set 3 68).set 11 32

/-- C117: One would expect that blanks in front of a record are either refused or of no effect. Neither holds: this record is
    read without complaint with and without a blank, as the same kind of record and with the same text, but with the blank
    its fields are others: another cycle date, another file record number, no record type. -/
theorem C117_refuted : ∃ t : Str, (Record.new.read t).res = .ok true ∧ (Record.new.read (32 :: t)).res = .ok true ∧
    (Record.new.read (32 :: t)).obj.raw = (Record.new.read t).obj.raw ∧
    (Record.new.read (32 :: t)).obj.ident = (Record.new.read t).obj.ident ∧
    (Record.new.read (32 :: t)).obj.fields.map (·.name) = (Record.new.read t).obj.fields.map (·.name) ∧
    ∀ n ∈ [py!"Record Type", py!"File Record No", py!"Cycle Date"],
      shown (Record.new.read (32 :: t)).obj.fields n ≠ shown (Record.new.read t).obj.fields n :=
  ⟨twoWays, by decide +kernel, by decide +kernel, by decide +kernel, by decide +kernel, by decide +kernel, by decide +kernel⟩

/-- the hypotheses of C117_displaced, C117_envelope, C117_detect and C43_accepted are met, with and without a blank -/
example : Ascii (32 :: twoWays) ∧ ¬ NoLeadingSpace (32 :: twoWays) ∧ NoLeadingSpace twoWays :=
  ⟨by unfold Ascii; decide +kernel, fun h => absurd (h 32 rfl) (by decide), fun c hc => by
    have : twoWays.head? = some 83 := by decide +kernel
    rw [this] at hc; cases hc; decide⟩

end
end Arinc
