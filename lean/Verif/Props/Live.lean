import Verif.Lemmas.Live
import Verif.Props.Cut
/-!
# C97: a file that changes while it is read

`c t` are the bytes of the file at the moment `t`; `Arrives c t 0 rs` says that its reads, from the moment `t` on, bring the
pieces `rs`. A file that is replaced (`os.replace`, `mv`) does not change: the open file is still the old one.
-/
namespace Arinc
open Py Spec

theorem live_same {b : List ℕ} {t i : ℕ} {rs : List (List ℕ)} (h : Arrives (fun _ => b) t i rs) :
    ∀ {cs : List (List ℕ)} {x : Except Exc (List Str)}, cs.flatten = b.take i → liveLines cs rs = some x →
      (x = (Disk.bytes b).file.readlines ∨ (b.length ≤ i ∧ cs = [] ∧ x = .ok [])) := by
  induction h with
  | nil t i => intro cs x _ h; cases cs <;> cases h
  | @read t i t' y rs ht hy hend h ih =>
    intro cs x hcs hl
    rw [liveLines.eq_def] at hl
    cases y with
    | nil =>
      have hi := hend rfl
      simp only at hl
      rw [List.take_of_length_le hi] at hcs
      rw [readlines_pieces, hcs] at hl
      cases hr : (Disk.bytes b).file.readlines with
      | error e =>
        rw [hr] at hl
        injection hl with hl
        exact .inl hl.symm
      | ok ls =>
        rw [hr] at hl
        simp only at hl
        split at hl
        · injection hl with hl
          exact .inl hl.symm
        · cases hn : liveLines [] rs with
          | none => rw [hn] at hl; cases hl
          | some r =>
            have hx : r = .ok [] := by
              cases h with
              | nil => cases hn
              | @read _ _ t'' z rs' _ hz _ _ =>
                rw [List.drop_eq_nil_of_le (by simpa using hi)] at hz
                rw [List.prefix_nil.1 hz, liveLines.eq_def] at hn
                simp only [readlines_pieces, List.flatten_nil] at hn
                have he : (Disk.bytes []).file.readlines = .ok [] := by
                  rw [file_text .nil]
                  rfl
                rw [he] at hn
                simp only [true_or, if_true] at hn
                injection hn with hn
                exact hn.symm
            subst hx
            rw [hn] at hl
            injection hl with hl
            left
            rw [← hl]
            simp [Except.map]
    | cons z y =>
      simp only at hl
      have hz : b.drop i = z :: y ++ (b.drop i).drop (z :: y).length := by
        obtain ⟨u, hu⟩ := hy
        rw [← hu]
        simp
      rcases ih (cs := cs ++ [z :: y]) (by
        rw [List.flatten_append, hcs, List.take_add, hz]
        simp) hl with h1 | ⟨-, h2, -⟩
      · exact .inl h1
      · simp at h2

/-- the bytes that are read up to the first end of the file -/
theorem live_first {c : Changing} {b : List ℕ} (hmono : ∀ t t', t ≤ t' → c t <+: c t') (hc : ∀ t, c t <+: b) {t i : ℕ}
    {rs : List (List ℕ)} (h : Arrives c t i rs) : ∀ {cs : List (List ℕ)} {ls : List Str}, i = cs.flatten.length →
      cs.flatten <+: b → liveLines cs rs = some (.ok ls) →
      ∃ b1 s1 l2, Utf8 s1 b1 ∧ b1 <+: b ∧ c t <+: b1 ∧ ls = readlines s1 ++ l2 := by
  induction h with
  | nil t i => intro cs ls _ _ h; cases cs <;> cases h
  | @read t i t' x rs ht hx hend _ ih =>
    intro cs ls hi hcs hl
    rw [liveLines.eq_def] at hl
    cases x with
    | nil =>
      simp only at hl
      cases hr : (Source.pieces cs).readlines with
      | error e => rw [hr] at hl; cases hl
      | ok l1 =>
        obtain ⟨s, hs, rfl⟩ := readlines_ok hr
        rw [hr] at hl
        have hpre : c t <+: cs.flatten := by
          refine List.prefix_of_prefix_length_le (hc t) hcs ?_
          rw [← hi]
          exact Nat.le_trans (hmono t t' ht).length_le (hend rfl)
        simp only at hl
        split at hl
        · injection hl with hl
          injection hl with hl
          exact ⟨_, s, [], hs, hcs, hpre, by rw [← hl, List.append_nil]⟩
        · cases hn : liveLines [] rs with
          | none => rw [hn] at hl; cases hl
          | some r =>
            rw [hn] at hl
            cases r with
            | error e => cases hl
            | ok l2 =>
              injection hl with hl
              injection hl with hl
              exact ⟨_, s, l2, hs, hcs, hpre, hl.symm⟩
    | cons y x =>
      simp only at hl
      obtain ⟨b1, s1, l2, h1, h2, h3, h4⟩ := ih (cs := cs ++ [y :: x]) (by simp [hi]) (by
        have h1 : y :: x <+: b.drop i := hx.trans (drop_prefix (hc t') i)
        obtain ⟨u, rfl⟩ := hcs
        rw [hi, List.drop_left] at h1
        simpa using h1) hl
      exact ⟨b1, s1, l2, h1, h2, (hmono t t' ht).trans h3, h4⟩

theorem live_error {rs : List (List ℕ)} : ∀ {cs : List (List ℕ)} {e : Exc}, liveLines cs rs = some (.error e) →
    e = .valueError := by
  induction rs with
  | nil => intro cs e h; cases cs <;> cases h
  | cons x rs ih =>
    intro cs e hl
    rw [liveLines.eq_def] at hl
    cases x with
    | nil =>
      simp only at hl
      cases hr : (Source.pieces cs).readlines with
      | error e' =>
        rw [hr] at hl
        injection hl with hl
        injection hl with hl
        exact hl ▸ (readlines_not hr).1
      | ok l1 =>
        rw [hr] at hl
        simp only at hl
        split at hl
        · cases hl
        · cases hn : liveLines [] rs with
          | none => rw [hn] at hl; cases hl
          | some r =>
            rw [hn] at hl
            cases r with
            | error e' =>
              injection hl with hl
              injection hl with hl
              exact hl ▸ ih hn
            | ok l2 => cases hl
    | cons y x =>
      simp only at hl
      exact ih hl

section
variable [PyUnicode]

/-- C97: If the file does not change while it is read, what happens is what its bytes say, whenever and in whatever
    pieces they are read. -/
theorem C97_unchanged {b : List ℕ} {t : ℕ} {rs : List (List ℕ)} (h : Arrives (fun _ => b) t 0 rs) (output : Bool)
    (legs : Legs) (filters : Filters) :
    (∀ o, readFileLive rs output legs = some o → o = readFileAt (.bytes b) output legs) ∧
    (∀ o, searchLive rs filters = some o → o = searchAt (.bytes b) filters) := by
  have key : ∀ {x}, liveLines [] rs = some x → x = (Disk.bytes b).file.readlines := by
    intro x hx
    rcases live_same h (by simp) hx with h1 | ⟨h1, -, h2⟩
    · exact h1
    · have hb : b = [] := List.length_eq_zero_iff.1 (Nat.le_zero.1 h1)
      subst hb
      rw [h2, file_text .nil]
      rfl
  constructor <;> intro o ho <;> simp only [readFileLive, searchLive, Option.map_eq_some_iff] at ho <;>
    obtain ⟨x, hx, rfl⟩ := ho <;> rw [key hx]
  · simp only [readFileAt, readFile]
    cases (Disk.bytes b).file.readlines <;> rfl
  · simp only [searchAt, search]
    cases (Disk.bytes b).file.readlines <;> rfl

/-- C97: If another program appends to the file while it is read, what `read_file` shows begins with what it would have
    shown of the file as it was when it was opened (at the moment `t`), unless the end of a piece is not the end of a
    character: then `read_file` raises `UnicodeDecodeError` and shows nothing. `b` is the file as it is in the end. -/
theorem C97_nothing_missed {c : Changing} {b : List ℕ} {s : Str} {ls : List Str}
    (hmono : ∀ t t', t ≤ t' → c t <+: c t') (hc : ∀ t, c t <+: b) (hb : Utf8 s b) (hs : Lines s ls)
    (hlen : ∀ l ∈ ls, l.length ≤ 132) {t : ℕ} {rs : List (List ℕ)} (h : Arrives c t 0 rs) (output : Bool) (legs : Legs)
    (o : CallOut Unit) (ho : readFileLive rs output legs = some o) :
    (readFileAt (.bytes (c t)) output legs).out <+: o.out ∨ (o.res = .error .valueError ∧ o.out = []) := by
  simp only [readFileLive, Option.map_eq_some_iff] at ho
  obtain ⟨x, hx, rfl⟩ := ho
  cases x with
  | error e => exact .inr ⟨by rw [live_error hx], rfl⟩
  | ok lines =>
    left
    obtain ⟨b1, s1, l2, h1, h2, h3, rfl⟩ := live_first hmono hc h (by simp) (by simp) hx
    obtain ⟨u, rfl⟩ := h2
    obtain ⟨v, rfl, -⟩ := utf8_prefix h1 hb
    obtain ⟨m, lp, lu, g1, -, g3, -⟩ := lines_split hs rfl
    have hlp : NoneLonger lp := by
      intro l hl
      refine Nat.le_trans (strip_length_le l) ?_
      rcases g3 with rfl | ⟨n, l', q, -, k1, k2, rfl⟩
      · exact hlen l (List.mem_of_mem_take hl)
      · rcases List.mem_append.1 hl with hl | hl
        · exact hlen l (List.mem_of_mem_take hl)
        · rw [List.mem_singleton.1 hl]
          exact Nat.le_trans k2.length_le (hlen l' (List.mem_of_getElem? k1))
    have h5 := (C96_output_partial h1 g1 h3 hlp output legs).1
    refine h5.trans ?_
    simp only
    rw [parseLines_append, parseLines_effs output (effs_chomped (lines_readlines g1))]
    have h6 : readFileAt (.bytes b1) output legs = parseLines output lp legs := by
      unfold readFileAt
      rw [file_text h1, readFile_lines g1]
    rw [h6]
    cases (parseLines output lp legs).res with
    | error e => simp
    | ok _ => simp

/-- C97: And it shows nothing that is not in the file: `read_file` and `search` do what they would do with some of the
    lines of the file, in their order. -/
theorem C97_nothing_invented {c : Changing} {b : List ℕ} {s : Str} {ls : List Str} (hc : ∀ t, c t <+: b) (hb : Utf8 s b)
    (hs : Lines s ls) (hlen : ∀ l ∈ ls, l.length ≤ 132) {t : ℕ} {rs : List (List ℕ)} (h : Arrives c t 0 rs) :
    ∃ sub : List Str, sub.Sublist ls ∧ ∀ s', Lines s' sub →
      (∀ output legs o, readFileLive rs output legs = some o →
        o = readFile (.text s') output legs ∨ o = ⟨.error .valueError, [], legs⟩) ∧
      (∀ filters o, searchLive rs filters = some o →
        o = search (.text s') filters ∨ o = (.error .valueError, [])) := by
  cases hx : liveLines [] rs with
  | none => exact ⟨[], by simp, fun s' _ => ⟨fun _ _ _ ho => by simp [readFileLive, hx] at ho,
      fun _ _ ho => by simp [searchLive, hx] at ho⟩⟩
  | some x =>
    cases x with
    | error e =>
      have := live_error hx
      subst this
      refine ⟨[], by simp, fun s' _ => ⟨fun output legs o ho => .inr ?_, fun filters o ho => .inr ?_⟩⟩
      · simpa [readFileLive, hx] using ho.symm
      · simpa [searchLive, hx] using ho.symm
    | ok lines =>
      have hsegs := live_segs hc h (j := 0) (cs := []) (by simp) (by simp) hx
      rw [List.drop_zero] at hsegs
      obtain ⟨sub, g1, -, g3⟩ := segs_effs hsegs hb hs hlen
      refine ⟨sub, g1, fun s' hs' => ⟨fun output legs o ho => .inl ?_, fun filters o ho => .inl ?_⟩⟩
      · simp only [readFileLive, hx, Option.map_some, Option.some.injEq] at ho
        rw [← ho, readFile_lines hs', parseLines_effs output g3]
      · simp only [searchLive, hx, Option.map_some, Option.some.injEq] at ho
        rw [← ho, search_lines hs', searchLines_effs filters g3]

end

section
attribute [local instance] Py.Tables.cpython311

/-- the first half of a record, and later the rest and another record -/
def growing : Changing := fun t => if t = 0 then Sample.airport.take 60 else Sample.airport ++ 10 :: (Sample.vhf ++ [10])

/-- what is read: the first half, the end of the file; the rest, the end of the file -/
def growingReads : List (List ℕ) :=
  [Sample.airport.take 60, [], Sample.airport.drop 60 ++ 10 :: (Sample.vhf ++ [10]), []]

theorem growing_reads : Arrives growing 0 0 growingReads := by
  refine .read (t' := 0) (Nat.le_refl _) ?_ ?_ (.read (t' := 0) (Nat.le_refl _) ?_ ?_ (.read (t' := 1) (by omega) ?_ ?_
    (.read (t' := 1) (Nat.le_refl _) ?_ ?_ (.nil _ _)))) <;> decide +kernel

theorem growing_mono (t t' : ℕ) (h : t ≤ t') : growing t <+: growing t' := by
  unfold growing
  by_cases h0 : t' = 0
  · rw [if_pos h0, if_pos (by omega)]
  · rw [if_neg h0]
    by_cases h1 : t = 0
    · rw [if_pos h1]
      exact (List.take_prefix _ _).trans (List.prefix_append _ _)
    · rw [if_neg h1]

/-- the hypotheses of C97_nothing_missed and C97_nothing_invented are met -/
example : Arrives growing 0 0 growingReads ∧ (∀ t t', t ≤ t' → growing t <+: growing t') ∧
    (∀ t, growing t <+: growing 1) ∧ Utf8 (growing 1) (growing 1) ∧ Lines (growing 1) [Sample.airport, Sample.vhf] ∧
    (∀ l ∈ [Sample.airport, Sample.vhf], l.length ≤ 132) := by
  refine ⟨growing_reads, growing_mono, fun t => ?_, utf8_ascii (by decide +kernel), ?_, by decide +kernel⟩
  · by_cases h : t = 0
    · subst h
      exact growing_mono 0 1 (by omega)
    · simp [growing, h]
  · exact .lf (by decide +kernel) (.lf (s := []) (by decide +kernel) .nil)

/-- C97 is false in so far as a record is shown although one before it is not: the file had grown to half of the first
    record when it was first read to its end, and the two halves are taken for two lines. -/
theorem C97_refuted_growing : ∃ (c : Changing) (rs : List (List ℕ)), (∀ t t', t ≤ t' → c t <+: c t') ∧
    Arrives c 0 0 rs ∧ searchAt (.bytes (c 1)) (.str []) =
      (.ok (), [.line Sample.airport, .line Sample.vhf, .summary 2 (.str []) true]) ∧
    searchLive rs (.str []) = some (.ok (), [.line Sample.vhf, .summary 1 (.str []) true]) := by
  refine ⟨growing, growingReads, growing_mono, growing_reads, ?_, ?_⟩
  · simp only [searchAt, file_text (utf8_ascii (b := growing 1) (by decide +kernel))]
    decide +kernel
  · decide +kernel

/-- another airport record -/
def airport' : Str := (Sample.airport.set 7 66).set 100 66

/-- C97 is false of a file that is rewritten while it is read: a record is shown that was in the file at no time. -/
theorem C97_refuted_rewritten : ∃ (c : Changing) (rs : List (List ℕ)) (l : Str),
    (∀ t, c t = Sample.airport ∨ c t = airport') ∧ Arrives c 0 0 rs ∧ l ≠ Sample.airport ∧ l ≠ airport' ∧
    searchAt (.bytes Sample.airport) (.str []) = (.ok (), [.line Sample.airport, .summary 1 (.str []) true]) ∧
    searchAt (.bytes airport') (.str []) = (.ok (), [.line airport', .summary 1 (.str []) true]) ∧
    searchLive rs (.str []) = some (.ok (), [.line l, .summary 1 (.str []) true]) := by
  refine ⟨fun t => if t = 0 then Sample.airport else airport', [Sample.airport.take 60, airport'.drop 60, [], []],
    Sample.airport.take 60 ++ airport'.drop 60, fun t => ?_, ?_, by decide +kernel, by decide +kernel, ?_, ?_, ?_⟩
  · by_cases h : t = 0
    · exact .inl (if_pos h)
    · exact .inr (if_neg h)
  · refine .read (t' := 0) (Nat.le_refl _) ?_ ?_ (.read (t' := 1) (by omega) ?_ ?_ (.read (t' := 1) (Nat.le_refl _) ?_ ?_
      (.read (t' := 1) (Nat.le_refl _) ?_ ?_ (.nil _ _)))) <;> decide +kernel
  · simp only [searchAt, file_text (utf8_ascii (b := Sample.airport) (by decide +kernel))]
    decide +kernel
  · simp only [searchAt, file_text (utf8_ascii (b := airport') (by decide +kernel))]
    decide +kernel
  · decide +kernel

end
end Arinc
