import Verif.Model.Live
import Verif.Lemmas.Cut
import Verif.Lemmas.Stream
import Verif.Lemmas.Utf8
/-! Helper lemmas: files that change while they are read. -/
namespace Arinc
open Py Spec

/-! ### where a text is divided -/

/-- the lines of the two parts of a text -/
theorem lines_split {s : Str} {ls : List Str} (h : Lines s ls) : ∀ {p u : Str}, s = p ++ u →
    ∃ m lp lu, Lines p lp ∧ Lines u lu ∧
      (lp = ls.take m ∨ ∃ n l q, m = n + 1 ∧ ls[n]? = some l ∧ q <+: l ∧ lp = ls.take n ++ [q]) ∧
      (lu = ls.drop m ∨ ∃ r, lu = r :: ls.drop m ∧ (r = [] ∨ ∃ l ∈ ls, r.length < l.length)) := by
  have first : ∀ {l p r s' : Str} {ls : List Str}, NoEOL l → l = p ++ r → Lines (l ++ s') (l :: ls) →
      Lines (r ++ s') (r :: ls) → ∃ m lp lu, Lines p lp ∧ Lines (r ++ s') lu ∧
      (lp = (l :: ls).take m ∨ ∃ n l' q, m = n + 1 ∧ (l :: ls)[n]? = some l' ∧ q <+: l' ∧ lp = (l :: ls).take n ++ [q]) ∧
      (lu = (l :: ls).drop m ∨ ∃ r', lu = r' :: (l :: ls).drop m ∧ (r' = [] ∨ ∃ l' ∈ l :: ls, r'.length < l'.length)) := by
    intro l p r s' ls hl he h1 h2
    by_cases hp : p = []
    · subst hp
      rw [List.nil_append] at he
      subst he
      exact ⟨0, [], _, .nil, h1, .inl rfl, .inl rfl⟩
    · refine ⟨1, [p], _, .last (noEOL_prefix hl ⟨r, he.symm⟩) hp, h2, .inr ⟨0, l, p, rfl, rfl, ⟨r, he.symm⟩, rfl⟩,
        .inr ⟨r, rfl, .inr ⟨l, by simp, ?_⟩⟩⟩
      have : 0 < p.length := List.length_pos_iff.2 hp
      rw [he, List.length_append]
      omega
  have later : ∀ {l p u : Str} {x : Str} {ls : List Str}, (∀ {lp : List Str}, Lines p lp → Lines (l ++ x ++ p) (l :: lp)) →
      (∃ m lp lu, Lines p lp ∧ Lines u lu ∧
      (lp = ls.take m ∨ ∃ n l' q, m = n + 1 ∧ ls[n]? = some l' ∧ q <+: l' ∧ lp = ls.take n ++ [q]) ∧
      (lu = ls.drop m ∨ ∃ r, lu = r :: ls.drop m ∧ (r = [] ∨ ∃ l' ∈ ls, r.length < l'.length))) →
      ∃ m lp lu, Lines (l ++ x ++ p) lp ∧ Lines u lu ∧
      (lp = (l :: ls).take m ∨ ∃ n l' q, m = n + 1 ∧ (l :: ls)[n]? = some l' ∧ q <+: l' ∧ lp = (l :: ls).take n ++ [q]) ∧
      (lu = (l :: ls).drop m ∨ ∃ r', lu = r' :: (l :: ls).drop m ∧ (r' = [] ∨ ∃ l' ∈ l :: ls, r'.length < l'.length)) := by
    rintro l p u x ls hx ⟨m, lp, lu, h1, h2, h3, h4⟩
    refine ⟨m + 1, l :: lp, lu, hx h1, h2, ?_, ?_⟩
    · rcases h3 with rfl | ⟨n, l', q, rfl, h5, h6, rfl⟩
      · exact .inl rfl
      · exact .inr ⟨n + 1, l', q, rfl, h5, h6, rfl⟩
    · rcases h4 with rfl | ⟨r, rfl, h5⟩
      · exact .inl rfl
      · refine .inr ⟨r, rfl, h5.imp_right ?_⟩
        rintro ⟨l', h6, h7⟩
        exact ⟨l', by simp [h6], h7⟩
  induction h with
  | nil =>
    intro p u he
    obtain ⟨rfl, rfl⟩ := List.append_eq_nil_iff.1 he.symm
    exact ⟨0, [], [], .nil, .nil, .inl rfl, .inl rfl⟩
  | @last l hl hne =>
    intro p u he
    by_cases hu : u = []
    · subst hu
      rw [List.append_nil] at he
      subst he
      exact ⟨1, [l], [], .last hl hne, .nil, .inl rfl, .inl rfl⟩
    · have hn : NoEOL u := fun c hc => hl c (by rw [he]; simp [hc])
      have := first (s' := []) hl he (by rw [List.append_nil]; exact .last hl hne)
        (by rw [List.append_nil]; exact .last hn hu)
      rwa [List.append_nil] at this
  | @lf l s ls hl t ih =>
    intro p u he
    rcases prefix_append_cases (p := p) ⟨u, he.symm⟩ with ⟨r, hr⟩ | ⟨q, -, rfl⟩
    · have hu : u = r ++ 10 :: s := by
        rw [← hr, List.append_assoc] at he
        exact (List.append_cancel_left he).symm
      subst hu
      exact first hl hr.symm (.lf hl t) (.lf (fun c hc => hl c (by rw [← hr]; simp [hc])) t)
    · rw [List.append_assoc] at he
      replace he := List.append_cancel_left he
      cases q with
      | nil =>
        rw [List.nil_append] at he
        subst he
        rw [List.append_nil]
        exact first (r := []) hl (List.append_nil l).symm (.lf hl t) (.lf (by intro c hc; cases hc) t)
      | cons x q =>
        rw [List.cons_append, List.cons.injEq] at he
        obtain ⟨rfl, rfl⟩ := he
        have := later (l := l) (x := [10]) (fun {lp} (h : Lines q lp) => by simpa using Lines.lf hl h) (ih rfl)
        simpa using this
  | @crlf l s ls hl t ih =>
    intro p u he
    rcases prefix_append_cases (p := p) ⟨u, he.symm⟩ with ⟨r, hr⟩ | ⟨q, -, rfl⟩
    · have hu : u = r ++ 13 :: 10 :: s := by
        rw [← hr, List.append_assoc] at he
        exact (List.append_cancel_left he).symm
      subst hu
      exact first hl hr.symm (.crlf hl t) (.crlf (fun c hc => hl c (by rw [← hr]; simp [hc])) t)
    · rw [List.append_assoc] at he
      replace he := List.append_cancel_left he
      cases q with
      | nil =>
        rw [List.nil_append] at he
        subst he
        rw [List.append_nil]
        exact first (r := []) hl (List.append_nil l).symm (.crlf hl t) (.crlf (by intro c hc; cases hc) t)
      | cons x q =>
        rw [List.cons_append, List.cons.injEq] at he
        obtain ⟨rfl, he⟩ := he
        cases q with
        | nil =>
          rw [List.nil_append] at he
          subst he
          exact ⟨1, [l], [] :: ls, .cr hl .nil (by simp), .lf (l := []) (by intro c hc; cases hc) t, .inl rfl,
            .inr ⟨[], rfl, .inl rfl⟩⟩
        | cons y q =>
          rw [List.cons_append, List.cons.injEq] at he
          obtain ⟨rfl, rfl⟩ := he
          have := later (l := l) (x := [13, 10]) (fun {lp} (h : Lines q lp) => by simpa using Lines.crlf hl h) (ih rfl)
          simpa using this
  | @cr l s ls hl t hs ih =>
    intro p u he
    rcases prefix_append_cases (p := p) ⟨u, he.symm⟩ with ⟨r, hr⟩ | ⟨q, -, rfl⟩
    · have hu : u = r ++ 13 :: s := by
        rw [← hr, List.append_assoc] at he
        exact (List.append_cancel_left he).symm
      subst hu
      exact first hl hr.symm (.cr hl t hs) (.cr (fun c hc => hl c (by rw [← hr]; simp [hc])) t hs)
    · rw [List.append_assoc] at he
      replace he := List.append_cancel_left he
      cases q with
      | nil =>
        rw [List.nil_append] at he
        subst he
        rw [List.append_nil]
        exact first (r := []) hl (List.append_nil l).symm (.cr hl t hs) (.cr (by intro c hc; cases hc) t hs)
      | cons x q =>
        rw [List.cons_append, List.cons.injEq] at he
        obtain ⟨rfl, rfl⟩ := he
        have hq : q.head? ≠ some 10 := by
          cases q with
          | nil => simp
          | cons y q => simpa using hs
        have := later (l := l) (x := [13]) (fun {lp} (h : Lines q lp) => by simpa using Lines.cr hl h hq) (ih rfl)
        simpa using this

/-! ### what lines come to -/

section
variable [PyUnicode]

/-- ignored without a message -/
def ReadOut.silent (r : ReadOut) : Bool :=
  match r.res with
  | .ok false => r.out.isEmpty
  | _ => false

/-- what the lines that are not ignored come to -/
def effs (ls : List Str) : List ReadOut := (ls.map Record.new.read).filter (!·.silent)

theorem effs_append (a b : List Str) : effs (a ++ b) = effs a ++ effs b := by simp [effs]

theorem effs_cons (l : Str) (ls : List Str) : effs (l :: ls) = effs [l] ++ effs ls := effs_append [l] ls

omit [PyUnicode] in
theorem silent_iff {r : ReadOut} : r.silent = true ↔ r.res = .ok false ∧ r.out = [] := by
  unfold ReadOut.silent
  split <;> simp_all

theorem parseLines_effs (output : Bool) : ∀ {a b : List Str}, effs a = effs b → ∀ legs,
    parseLines output a legs = parseLines output b legs := by
  have skip : ∀ {l : Str} {ls : List Str} {legs : Legs}, (Record.new.read l).silent = true →
      parseLines output (l :: ls) legs = parseLines output ls legs := by
    intro l ls legs h
    obtain ⟨h1, h2⟩ := silent_iff.1 h
    simp [parseLines, parse, h1, h2]
  have nils : ∀ {b : List Str}, effs b = [] → ∀ legs, parseLines output b legs = parseLines output [] legs := by
    intro b hb legs
    induction b with
    | nil => rfl
    | cons l b ih =>
      cases hs : (Record.new.read l).silent with
      | false => simp [effs, hs] at hb
      | true => rw [skip hs, ih (by simpa [effs, hs] using hb)]
  intro a
  induction a with
  | nil => exact fun h legs => (nils h.symm legs).symm
  | cons l a ih =>
    intro b hab legs
    cases hs : (Record.new.read l).silent with
    | true =>
      rw [skip hs]
      exact ih (by simpa [effs, hs] using hab) legs
    | false =>
      induction b with
      | nil => simp [effs, hs] at hab
      | cons l' b ihb =>
        cases hs' : (Record.new.read l').silent with
        | true =>
          rw [skip hs']
          exact ihb (by simpa [effs, hs'] using hab)
        | false =>
          simp only [effs, List.map_cons, List.filter_cons, hs, hs', Bool.not_false, if_true, List.cons.injEq] at hab
          simp only [parseLines, parse_congr hab.1, ih hab.2]

theorem searchLines_effs (filters : Filters) : ∀ {a b : List Str}, effs a = effs b → ∀ n,
    searchLines filters a n = searchLines filters b n := by
  have skip : ∀ {l : Str} {ls : List Str} {n : Nat}, (Record.new.read l).silent = true →
      searchLines filters (l :: ls) n = searchLines filters ls n := by
    intro l ls n h
    obtain ⟨h1, h2⟩ := silent_iff.1 h
    simp [searchLines, h1, h2]
  have nils : ∀ {b : List Str}, effs b = [] → ∀ n, searchLines filters b n = searchLines filters [] n := by
    intro b hb n
    induction b with
    | nil => rfl
    | cons l b ih =>
      cases hs : (Record.new.read l).silent with
      | false => simp [effs, hs] at hb
      | true => rw [skip hs, ih (by simpa [effs, hs] using hb)]
  intro a
  induction a with
  | nil => exact fun h n => (nils h.symm n).symm
  | cons l a ih =>
    intro b hab n
    cases hs : (Record.new.read l).silent with
    | true =>
      rw [skip hs]
      exact ih (by simpa [effs, hs] using hab) n
    | false =>
      induction b with
      | nil => simp [effs, hs] at hab
      | cons l' b ihb =>
        cases hs' : (Record.new.read l').silent with
        | true =>
          rw [skip hs']
          exact ihb (by simpa [effs, hs'] using hab)
        | false =>
          simp only [effs, List.map_cons, List.filter_cons, hs, hs', Bool.not_false, if_true, List.cons.injEq] at hab
          simp only [searchLines, hab.1, ih hab.2]

theorem effs_chomped {rs ls : List Str} (h : Chomped rs ls) : effs rs = effs ls := by
  induction rs generalizing ls with
  | nil => cases ls with
    | nil => rfl
    | cons => cases h
  | cons r rs ih =>
    cases ls with
    | nil => cases h
    | cons l ls =>
      have hp : Record.new.read r = Record.new.read l := by
        rcases h.1 with h1 | h1
        · rw [h1]
        · rw [h1, read_lf]
      rw [effs_cons, effs_cons l, ih h.2]
      simp only [effs, List.map_cons, List.map_nil, hp]

theorem effs_short {l : Str} (h : ¬ WellShaped l) : effs [l] = [] := by
  obtain ⟨o, ho⟩ := parse_reject (l := l) (fun h' => h h'.1)
  simp [effs, ho, ReadOut.silent]

theorem short_not {l : Str} (h : l.length < 132) : ¬ WellShaped l := by
  rintro ⟨t, hp, ht⟩
  have := length_line (line := l) (by rw [isRecord_strip hp ht]; exact ht)
  omega

/-- lines that are too short do not matter -/
theorem effs_long (ls : List Str) : effs (ls.filter (132 ≤ ·.length)) = effs ls := by
  induction ls with
  | nil => rfl
  | cons l ls ih =>
    rw [List.filter_cons]
    split
    · rw [effs_cons, ih, ← effs_cons]
    · rename_i h
      rw [effs_cons, effs_short (short_not (by simpa using h)), ih, List.nil_append]

theorem effs_torn {l q : Str} (hq : q <+: l) (hl : l.length ≤ 132) : effs [q] = [] ∨ effs [q] = effs [l] := by
  by_cases hw : WellShaped q
  · obtain ⟨ws, hs, rfl⟩ := torn_space hq hw (Nat.le_trans (strip_length_le l) hl)
    right
    have : Record.new.read (q ++ ws) = Record.new.read q := read_append_space q ws hs Record.new
    simp [effs, this]
  · exact .inl (effs_short hw)

/-- the first part of a text has the effects of some of its lines -/
theorem effs_first {ls lp : List Str} {m : Nat} (hlen : ∀ l ∈ ls, l.length ≤ 132)
    (h : lp = ls.take m ∨ ∃ n l q, m = n + 1 ∧ ls[n]? = some l ∧ q <+: l ∧ lp = ls.take n ++ [q]) :
    ∃ sub, sub.Sublist (ls.take m) ∧ (∀ x ∈ sub, 132 ≤ x.length) ∧ effs lp = effs sub := by
  have key : ∀ k : List Str, k.Sublist (ls.take m) → effs lp = effs k →
      ∃ sub, sub.Sublist (ls.take m) ∧ (∀ x ∈ sub, 132 ≤ x.length) ∧ effs lp = effs sub := fun k h1 h2 =>
    ⟨k.filter (132 ≤ ·.length), List.filter_sublist.trans h1, fun x hx => by simpa using (List.mem_filter.1 hx).2,
      by rw [effs_long, h2]⟩
  rcases h with rfl | ⟨n, l, q, rfl, hl, hq, rfl⟩
  · exact key _ (List.Sublist.refl _) rfl
  · have ht : ls.take (n + 1) = ls.take n ++ [l] := by rw [List.take_add_one, hl]; rfl
    rcases effs_torn hq (hlen l (List.mem_of_getElem? hl)) with h0 | h0
    · refine key (ls.take n) ?_ (by rw [effs_append, h0, List.append_nil])
      rw [ht]
      exact List.sublist_append_left _ _
    · refine key (ls.take n ++ [l]) ?_ (by rw [effs_append, effs_append, h0])
      rw [ht]
      exact List.Sublist.refl _

end

/-! ### the bytes -/

/-- `Segs b ls`: reading brings the lines `ls`, of the first part of the bytes `b`, in segments -/
inductive Segs : List Nat → List Str → Prop
  | last {b t : List Nat} {s : Str} (h : Utf8 s b) : Segs (b ++ t) (readlines s)
  | more {b t : List Nat} {s : Str} {ls : List Str} (h : Utf8 s b) (r : Segs t ls) : Segs (b ++ t) (readlines s ++ ls)

theorem readlines_ok {cs : List (List Nat)} {ls : List Str} (h : (Source.pieces cs).readlines = .ok ls) :
    ∃ s, Utf8 s cs.flatten ∧ ls = readlines s := by
  rw [readlines_pieces] at h
  simp only [Disk.file] at h
  cases hd : utf8Decode cs.flatten with
  | none => rw [hd] at h; cases h
  | some s =>
    rw [hd] at h
    injection h with h
    exact ⟨s, utf8_iff.1 hd, h.symm⟩

theorem readlines_not {cs : List (List Nat)} {e : Exc} (h : (Source.pieces cs).readlines = .error e) :
    e = .valueError ∧ ∀ s, ¬ Utf8 s cs.flatten := by
  rw [readlines_pieces] at h
  simp only [Disk.file] at h
  cases hd : utf8Decode cs.flatten with
  | none =>
    rw [hd] at h
    injection h with h
    exact ⟨h.symm, fun s hs => by rw [utf8_complete hs] at hd; cases hd⟩
  | some s => rw [hd] at h; cases h

theorem drop_prefix {α : Type} {a b : List α} (h : a <+: b) (i : Nat) : a.drop i <+: b.drop i := by
  obtain ⟨t, rfl⟩ := h
  rw [List.drop_append]
  exact List.prefix_append _ _

/-- reading a file that only grows, to `b` in the end -/
theorem live_segs {c : Changing} {b : List Nat} (hc : ∀ t, c t <+: b) {t i : Nat} {rs : List (List Nat)}
    (h : Arrives c t i rs) : ∀ {j : Nat} {cs : List (List Nat)} {ls : List Str}, i = j + cs.flatten.length →
      cs.flatten <+: b.drop j → liveLines cs rs = some (.ok ls) → Segs (b.drop j) ls := by
  induction h with
  | nil t i => intro j cs ls _ _ h; cases cs <;> cases h
  | @read t i t' x rs ht hx hend _ ih =>
    intro j cs ls hi hcs hl
    cases x with
    | nil =>
      rw [liveLines.eq_def] at hl
      simp only at hl
      cases hr : (Source.pieces cs).readlines with
      | error e => rw [hr] at hl; cases hl
      | ok l1 =>
        obtain ⟨s, hs, rfl⟩ := readlines_ok hr
        rw [hr] at hl
        simp only at hl
        obtain ⟨u, hu⟩ := hcs
        split at hl
        · injection hl with hl
          injection hl with hl
          rw [← hl, ← hu]
          exact .last hs
        · cases hn : liveLines [] rs with
          | none => rw [hn] at hl; cases hl
          | some r =>
            rw [hn] at hl
            cases r with
            | error e => cases hl
            | ok l2 =>
              injection hl with hl
              injection hl with hl
              have := ih (j := i) (cs := []) (by simp) (by simp) hn
              rw [← hl, ← hu]
              refine .more hs ?_
              have hd : b.drop i = u := by
                rw [hi, ← List.drop_drop, ← hu, List.drop_left]
              rw [← hd]
              exact this
    | cons y x =>
      rw [liveLines.eq_def] at hl
      simp only at hl
      refine ih (j := j) (cs := cs ++ [y :: x]) (by simp [hi]; omega) ?_ hl
      have h1 : y :: x <+: b.drop i := hx.trans (drop_prefix (hc t') i)
      obtain ⟨u, hu⟩ := hcs
      rw [hi, ← List.drop_drop, ← hu, List.drop_left] at h1
      rw [← hu]
      simpa using h1

section
variable [PyUnicode]

theorem segs_effs {b : List Nat} {lines : List Str} (h : Segs b lines) : ∀ {s : Str} {ls : List Str}, Utf8 s b →
    Lines s ls → (∀ l ∈ ls, l.length ≤ 132) →
    ∃ sub, sub.Sublist ls ∧ (∀ x ∈ sub, 132 ≤ x.length) ∧ effs lines = effs sub := by
  induction h with
  | last h =>
    intro s ls hs hl hlen
    obtain ⟨u, rfl, -⟩ := utf8_prefix h hs
    obtain ⟨m, lp, lu, h1, -, h3, -⟩ := lines_split hl rfl
    obtain ⟨sub, g1, g2, g3⟩ := effs_first hlen h3
    exact ⟨sub, g1.trans (List.take_sublist m ls), g2, by rw [effs_chomped (lines_readlines h1), g3]⟩
  | @more b t s' ls' h _ ih =>
    intro s ls hs hl hlen
    obtain ⟨u, rfl, hu⟩ := utf8_prefix h hs
    obtain ⟨m, lp, lu, h1, h2, h3, h4⟩ := lines_split hl rfl
    obtain ⟨sub, g1, g2, g3⟩ := effs_first hlen h3
    have hlen' : ∀ l ∈ lu, l.length ≤ 132 := by
      rcases h4 with rfl | ⟨r, rfl, hr⟩
      · exact fun l hl => hlen l (List.mem_of_mem_drop hl)
      · intro l hl
        rcases List.mem_cons.1 hl with rfl | hl
        · rcases hr with rfl | ⟨l', h5, h6⟩
          · simp
          · exact Nat.le_trans (Nat.le_of_lt h6) (hlen l' h5)
        · exact hlen l (List.mem_of_mem_drop hl)
    obtain ⟨sub', k1, k2, k3⟩ := ih hu h2 hlen'
    have k4 : sub'.Sublist (ls.drop m) := by
      rcases h4 with rfl | ⟨r, rfl, hr⟩
      · exact k1
      · cases k1 with
        | cons _ k => exact k
        | cons_cons _ k =>
          exfalso
          have h7 := k2 r (by simp)
          rcases hr with rfl | ⟨l', h5, h6⟩
          · simp at h7
          · have := hlen l' h5
            omega
    refine ⟨sub ++ sub', ?_, ?_, ?_⟩
    · have := g1.append k4
      rwa [List.take_append_drop] at this
    · intro x hx
      rcases List.mem_append.1 hx with hx | hx
      · exact g2 x hx
      · exact k2 x hx
    · rw [effs_append, effs_append, effs_chomped (lines_readlines h1), g3, k3]

end
end Arinc
