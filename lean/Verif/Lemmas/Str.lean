import Verif.Spec.Shape
/-! Helper lemmas on strings: stripping, slicing, substring. -/
namespace Py
open Spec

theorem dropWhile_all {p : Nat → Bool} {a b : Str} (h : ∀ c ∈ a, p c = true) :
    (a ++ b).dropWhile p = b.dropWhile p := by
  induction a with
  | nil => rfl
  | cons c a ih =>
    simp only [List.cons_append]
    rw [List.dropWhile_cons_of_pos (h c (by simp))]
    exact ih (fun c hc => h c (by simp [hc]))

theorem dropWhile_head {p : Nat → Bool} {b : Str} (h : ∀ c, b.head? = some c → p c = false) :
    b.dropWhile p = b := by
  cases b with
  | nil => rfl
  | cons c b => rw [List.dropWhile_cons_of_neg]; simp [h c rfl]

theorem takeWhile_append_dropWhile' {p : Nat → Bool} (s : Str) :
    s = s.takeWhile p ++ s.dropWhile p := (List.takeWhile_append_dropWhile).symm

theorem head_dropWhile {p : Nat → Bool} {s : Str} {c : Nat} (h : (s.dropWhile p).head? = some c) :
    p c = false := by
  induction s with
  | nil => simp at h
  | cons d s ih =>
    by_cases hd : p d = true
    · rw [List.dropWhile_cons_of_pos hd] at h; exact ih h
    · rw [List.dropWhile_cons_of_neg hd] at h
      simp at h; subst h; simpa using hd

theorem mem_takeWhile' {p : Nat → Bool} {s : Str} {c : Nat} (h : c ∈ s.takeWhile p) : p c = true := by
  induction s with
  | nil => simp at h
  | cons d s ih =>
    by_cases hd : p d = true
    · rw [List.takeWhile_cons_of_pos hd] at h
      rcases List.mem_cons.1 h with rfl | h
      · exact hd
      · exact ih h
    · rw [List.takeWhile_cons_of_neg hd] at h; simp at h

/-- Every string is its `strip` with whitespace around it. -/
theorem padded_strip (s : Str) : Padded s (strip s) := by
  refine ⟨s.takeWhile isSpace, ((lstrip s).reverse.takeWhile isSpace).reverse, ?_, ?_, ?_⟩
  · have h2 : (lstrip s) = rstrip (lstrip s) ++ ((lstrip s).reverse.takeWhile isSpace).reverse := by
      have := takeWhile_append_dropWhile' (p := isSpace) (lstrip s).reverse
      have h := congrArg List.reverse this
      rw [List.reverse_reverse, List.reverse_append] at h
      exact h
    have h3 : s = s.takeWhile isSpace ++ lstrip s := takeWhile_append_dropWhile' s
    rw [List.append_assoc]
    unfold strip
    rw [← h2]
    exact h3
  · intro c hc; exact mem_takeWhile' hc
  · intro c hc; rw [List.mem_reverse] at hc; exact mem_takeWhile' hc

/-- Stripping removes exactly the surrounding whitespace. -/
theorem strip_of_padded {line t : Str} (h : Padded line t)
    (h1 : ∀ c, t.head? = some c → isSpace c = false)
    (h2 : ∀ c, t.getLast? = some c → isSpace c = false) : strip line = t := by
  obtain ⟨pre, post, rfl, hpre, hpost⟩ := h
  by_cases ht : t = []
  · subst ht
    have : lstrip (pre ++ [] ++ post) = [] := by
      unfold lstrip
      rw [List.append_nil]
      have := dropWhile_all (p := isSpace) (a := pre ++ post) (b := [])
        (by intro c hc; rcases List.mem_append.1 hc with h | h; exact hpre c h; exact hpost c h)
      simpa using this
    unfold strip; rw [this]; rfl
  · have e1 : lstrip (pre ++ t ++ post) = t ++ post := by
      unfold lstrip
      rw [List.append_assoc, dropWhile_all hpre, dropWhile_head]
      intro c hc
      apply h1 c
      cases t with
      | nil => exact absurd rfl ht
      | cons a b => simpa using hc
    have e2 : rstrip (t ++ post) = t := by
      unfold rstrip
      rw [List.reverse_append, dropWhile_all, dropWhile_head, List.reverse_reverse]
      · intro c hc; rw [List.head?_reverse] at hc; exact h2 c hc
      · intro c hc; exact hpost c (List.mem_reverse.1 hc)
    unfold strip; rw [e1, e2]

theorem strip_head {s : Str} {c : Nat} (h : (strip s).head? = some c) : isSpace c = false := by
  have hl : ∀ c, (lstrip s).head? = some c → isSpace c = false := fun c h => head_dropWhile h
  -- rstrip of a nonempty-prefix list keeps the head
  have hp : ∀ l : Str, rstrip l <+: l := by
    intro l
    unfold rstrip
    have : (l.reverse.dropWhile isSpace) <:+ l.reverse := List.dropWhile_suffix _
    have := List.reverse_prefix.2 this
    simpa using this
  have hq := hp (lstrip s)
  obtain ⟨t, ht⟩ := hq
  apply hl c
  rw [← ht]
  unfold strip at h
  cases hr : rstrip (lstrip s) with
  | nil => rw [hr] at h; simp at h
  | cons a b => rw [hr] at h; simpa using h

theorem strip_last {s : Str} {c : Nat} (h : (strip s).getLast? = some c) : isSpace c = false := by
  unfold strip rstrip at h
  rw [List.getLast?_reverse] at h
  exact head_dropWhile h

theorem strip_strip (s : Str) : strip (strip s) = strip s :=
  strip_of_padded ⟨[], [], by simp, by intro c h; simp at h, by intro c h; simp at h⟩
    (fun _ h => strip_head h) (fun _ h => strip_last h)

theorem padded_iff_strip {line t : Str} (h1 : ∀ c, t.head? = some c → isSpace c = false)
    (h2 : ∀ c, t.getLast? = some c → isSpace c = false) : Padded line t ↔ strip line = t :=
  ⟨fun h => strip_of_padded h h1 h2, fun h => h ▸ padded_strip line⟩

theorem strip_append_space {s ws : Str} (h : AllSpace ws) : strip (s ++ ws) = strip s := by
  obtain ⟨pre, post, e, hp, hq⟩ := padded_strip s
  apply strip_of_padded _ (fun _ h => strip_head h) (fun _ h => strip_last h)
  refine ⟨pre, post ++ ws, ?_, hp, ?_⟩
  · rw [← List.append_assoc, ← e]
  · intro c hc; rcases List.mem_append.1 hc with h' | h'
    · exact hq c h'
    · exact h c h'

theorem strip_space_append {s ws : Str} (h : AllSpace ws) : strip (ws ++ s) = strip s := by
  obtain ⟨pre, post, e, hp, hq⟩ := padded_strip s
  apply strip_of_padded _ (fun _ h => strip_head h) (fun _ h => strip_last h)
  refine ⟨ws ++ pre, post, ?_, ?_, hq⟩
  · rw [List.append_assoc, List.append_assoc, ← List.append_assoc pre, ← e]
  · intro c hc; rcases List.mem_append.1 hc with h' | h'
    · exact h c h'
    · exact hp c h'

/-- A line that does not start with whitespace is its strip followed by whitespace. -/
theorem eq_strip_append {s : Str} (h : NoLeadingSpace s) :
    ∃ post, s = strip s ++ post ∧ AllSpace post := by
  obtain ⟨pre, post, e, hp, hq⟩ := padded_strip s
  cases pre with
  | nil => exact ⟨post, by simpa using e, hq⟩
  | cons c pre =>
    exfalso
    have := h c (by rw [e]; rfl)
    have h2 := hp c (by simp)
    rw [h2] at this; exact Bool.noConfusion this

theorem strip_eq_nil_iff {s : Str} : strip s = [] ↔ AllSpace s := by
  constructor
  · intro h
    obtain ⟨pre, post, e, hp, hq⟩ := padded_strip s
    rw [h] at e
    intro c hc
    rw [e] at hc
    rcases List.mem_append.1 hc with h' | h'
    · rcases List.mem_append.1 h' with h'' | h''
      · exact hp c h''
      · simp at h''
    · exact hq c h'
  · intro h
    apply strip_of_padded
    · exact ⟨s, [], by simp, h, by intro c hc; simp at hc⟩
    · intro c hc; simp at hc
    · intro c hc; simp at hc

theorem strip_length_le (s : Str) : (strip s).length ≤ s.length := by
  obtain ⟨pre, post, e, _, _⟩ := padded_strip s
  have := congrArg List.length e
  simp only [List.length_append] at this
  omega

theorem mem_of_mem_strip {s : Str} {c : Nat} (h : c ∈ strip s) : c ∈ s := by
  obtain ⟨pre, post, e, _, _⟩ := padded_strip s
  rw [e]; simp [h]

theorem slice_eq_cols (s : Str) (lo hi : Nat) : slice s lo hi = cols s lo hi := by
  simp [slice, cols, List.drop_take]

theorem index_lt {s : Str} {i : Nat} (h : i < s.length) : index s i = .ok (col s i) := by
  simp [index, col, List.getElem?_eq_getElem h]

theorem index_ge {s : Str} {i : Nat} (h : s.length ≤ i) : index s i = .error .indexError := by
  simp [index, List.getElem?_eq_none h]

theorem col_lt {s : Str} {i : Nat} (h : i < s.length) : col s i = [s[i]] := by
  simp [col, List.getElem?_eq_getElem h]

theorem cols_append {t post : Str} {lo hi : Nat} (h : hi ≤ t.length) :
    cols (t ++ post) lo hi = cols t lo hi := by
  unfold cols
  by_cases hl : lo ≤ t.length
  · rw [List.drop_append_of_le_length hl, List.take_append_of_le_length]
    simp; omega
  · have : hi - lo = 0 := by omega
    simp [this]

theorem col_append {t post : Str} {i : Nat} (h : i < t.length) :
    col (t ++ post) i = col t i := by
  simp [col, List.getElem?_append_left h]

theorem cols_length {t : Str} {lo hi : Nat} (h : hi ≤ t.length) : (cols t lo hi).length = hi - lo := by
  simp only [cols, List.length_take, List.length_drop]; omega

theorem lastN_eq {s : Str} {n m : Nat} (h : s.length = n) : lastN s m = s.drop (n - m) := by
  simp [lastN, h]

theorem contains_iff {sub s : Str} : contains sub s = true ↔ sub <:+: s := by
  induction s with
  | nil =>
    simp [contains]
  | cons c s ih =>
    rw [contains, Bool.or_eq_true, ih, List.infix_cons_iff, List.isPrefixOf_iff_prefix]

end Py
