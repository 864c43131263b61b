import Verif.Lemmas.Size
import Verif.Spec.Size
import Verif.Lemmas.Stdout
/-!
# How long the text of a table is
-/
namespace Arinc
open Py Spec

theorem linesOf_length (s : Str) : (linesOf s).length = s.count 10 + 1 := by
  unfold linesOf
  rw [List.length_cons]
  congr 1
  induction s with
  | nil => rfl
  | cons c s ih =>
    unfold splitLF
    split
    · next h => subst h; simp [ih]
    · next h => rw [List.count_cons_of_ne (by simpa using h)]; exact ih

theorem linesOf_le (s : Str) : ∀ l ∈ linesOf s, l.length ≤ s.length := by
  unfold linesOf
  induction s with
  | nil => intro l hl; simp [splitLF] at hl; simp [hl]
  | cons c s ih =>
    intro l hl
    unfold splitLF at hl
    have h1 := ih (splitLF s).1 (by simp)
    have h2 := fun l hl => ih l (List.mem_cons_of_mem _ hl)
    simp only [List.length_cons]
    split at hl
    · simp only [List.mem_cons] at hl
      rcases hl with rfl | rfl | hl
      · simp
      · omega
      · have := h2 l hl; omega
    · simp only [List.mem_cons] at hl
      rcases hl with rfl | hl
      · simp only [List.length_cons]; omega
      · have := h2 l hl; omega

theorem foldl_max_bound {xs : List ℤ} {i B : ℤ} (hi : i ≤ B) (h : ∀ x ∈ xs, x ≤ B) : xs.foldl max i ≤ B := by
  induction xs generalizing i with
  | nil => exact hi
  | cons x xs ih => exact ih (max_le hi (h x (by simp))) fun y hy => h y (by simp [hy])

theorem foldl_max_le_nat {xs : List ℕ} {i B : ℕ} (hi : i ≤ B) (h : ∀ x ∈ xs, x ≤ B) : xs.foldl max i ≤ B := by
  induction xs generalizing i with
  | nil => exact hi
  | cons x xs ih => exact ih (max_le hi (h x (by simp))) fun y hy => h y (by simp [hy])

theorem cellWidth_narrow {width : Str → ℤ} (hw : AtMostDouble width) {s : Str} {B : ℕ} (h : s.length ≤ B) :
    cellWidth width s ≤ 2 * B := by
  have hl := linesOf_le s
  unfold linesOf at hl
  refine foldl_max_bound ?_ ?_
  · have := (hw (splitLF s).1).2; have := hl (splitLF s).1 (by simp); omega
  · intro x hx
    obtain ⟨l, hl', rfl⟩ := List.mem_map.1 hx
    have := (hw l).2; have := hl l (by simp [hl']); omega

theorem columnWidth_narrow {width : Str → ℤ} (hw : AtMostDouble width) {h : Str} {cs : List Str} {B : ℕ} (h1 : h.length ≤ B)
    (h2 : ∀ c ∈ cs, c.length ≤ B) : columnWidth width h cs ≤ 2 * B := by
  refine foldl_max_bound (cellWidth_narrow hw h1) fun x hx => ?_
  obtain ⟨c, hc, rfl⟩ := List.mem_map.1 hx
  exact cellWidth_narrow hw (h2 c hc)

theorem tableRule_length {a b c : ℤ} {A B C : ℕ} (ha : a ≤ 2 * A) (hb : b ≤ 2 * B) (hc : c ≤ 2 * C) :
    (tableRule [a, b, c]).length ≤ 2 * (A + B + C) + 10 := by
  simp only [tableRule, List.flatMap_cons, List.flatMap_nil, List.length_append, List.length_replicate, List.length_cons,
    List.length_nil]
  omega

theorem justify_length {width : Str → ℤ} (hw : AtMostDouble width) {w : ℤ} {s : Str} {B : ℕ} (h : w ≤ 2 * B) (hs : s.length ≤ B) :
    (justify width w s).length ≤ 3 * B + 1 := by
  simp only [justify, List.length_append, List.length_replicate]
  have := (hw s).1
  omega

theorem tableLine_length {width : Str → ℤ} (hw : AtMostDouble width) {a b c : ℤ} {A B C : ℕ} (ha : a ≤ 2 * A) (hb : b ≤ 2 * B)
    (hc : c ≤ 2 * C) {x y z : Str} (hx : x.length ≤ A) (hy : y.length ≤ B) (hz : z.length ≤ C) :
    (tableLine width [a, b, c] [x, y, z]).length ≤ 3 * (A + B + C) + 13 := by
  have h1 := justify_length hw ha hx
  have h2 := justify_length hw hb hy
  have h3 := justify_length hw hc hz
  simp only [tableLine, List.zip_cons_cons, List.zip_nil_right, List.flatMap_cons, List.flatMap_nil, List.length_append, List.length_cons,
    List.length_nil]
  omega

theorem cellLine_le {s : Str} {B : ℕ} (h : s.length ≤ B) (y : ℕ) : (((linesOf s)[y]?).getD []).length ≤ B := by
  cases hy : (linesOf s)[y]? with
  | none => simp
  | some l => exact Nat.le_trans (linesOf_le s l (List.mem_of_getElem? hy)) h

theorem joinLF_le {ls : List Str} {B : ℕ} (h : ∀ l ∈ ls, l.length ≤ B) : (joinLF ls).length ≤ ls.length * (B + 1) := by
  induction ls with
  | nil => simp [joinLF]
  | cons l ls ih =>
    have h1 := h l (by simp)
    have h2 := ih fun l hl => h l (by simp [hl])
    rw [List.length_cons, Nat.add_mul, Nat.one_mul]
    cases ls with
    | nil => simp only [joinLF]; omega
    | cons l' ls =>
      simp only [joinLF, List.length_append, List.length_cons] at h2 ⊢
      omega

/-- how long the text of a table is -/
theorem tableString_le {width : Str → ℤ} (hw : AtMostDouble width) {rows : List Line3} {n A B C D : ℕ} (hn : rows.length ≤ n)
    (hA : 5 ≤ A) (hB : 5 ≤ B) (hC : 7 ≤ C)
    (h : ∀ r ∈ rows, Size A 0 r.name ∧ Size B 0 r.value ∧ Size C D r.decoded) :
    (tableString width tableHead (rows.map cells3)).length ≤ (4 + n * (D + 1)) * (3 * (A + B + C) + 14) := by
  have ha : columnWidth width (py!"Field") (rows.map (·.name)) ≤ 2 * A := columnWidth_narrow hw hA fun c hc => by
    obtain ⟨r, hr, rfl⟩ := List.mem_map.1 hc; exact (h r hr).1.1
  have hb : columnWidth width (py!"Value") (rows.map (·.value)) ≤ 2 * B := columnWidth_narrow hw hB fun c hc => by
    obtain ⟨r, hr, rfl⟩ := List.mem_map.1 hc; exact (h r hr).2.1.1
  have hc : columnWidth width (py!"Decoded") (rows.map (·.decoded)) ≤ 2 * C := columnWidth_narrow hw hC fun c hc => by
    obtain ⟨r, hr, rfl⟩ := List.mem_map.1 hc; exact (h r hr).2.2.1
  unfold tableString
  simp only
  rw [tableHead, columnWidths_three]
  generalize columnWidth width (py!"Field") _ = a at *
  generalize columnWidth width (py!"Value") _ = b at *
  generalize columnWidth width (py!"Decoded") _ = c at *
  have hrule := tableRule_length ha hb hc
  have hrow : ∀ r ∈ rows, (tableRow width [a, b, c] (cells3 r)).length ≤ D + 1 ∧
      ∀ l ∈ tableRow width [a, b, c] (cells3 r), l.length ≤ 3 * (A + B + C) + 13 := by
    intro r hr
    obtain ⟨h1, h2, h3⟩ := h r hr
    constructor
    · simp only [tableRow, List.length_map, List.length_range]
      refine foldl_max_le_nat (by omega) ?_
      intro x hx
      simp only [cells3, List.map_cons, List.map_nil, linesOf_length, List.mem_cons, List.not_mem_nil, or_false] at hx
      have := h1.2; have := h2.2; have := h3.2
      omega
    · intro l hl
      simp only [tableRow, List.mem_map] at hl
      obtain ⟨y, _, rfl⟩ := hl
      exact tableLine_length hw ha hb hc (cellLine_le h1.1 y) (cellLine_le h2.1 y) (cellLine_le h3.1 y)
  have hcount : ((rows.map cells3).flatMap (tableRow width [a, b, c])).length ≤ n * (D + 1) := by
    refine Nat.le_trans ?_ (Nat.mul_le_mul_right _ hn)
    clear hn h ha hb hc
    induction rows with
    | nil => simp
    | cons r rows ih =>
      have := (hrow r (by simp)).1
      have := ih fun r hr => hrow r (by simp [hr])
      simp only [List.map_cons, List.flatMap_cons, List.length_append, List.length_cons, Nat.add_mul, Nat.one_mul]
      omega
  refine Nat.le_trans (joinLF_le (B := 3 * (A + B + C) + 13) ?_) ?_
  · intro l hl
    simp only [List.mem_cons, List.mem_append, List.not_mem_nil, or_false, List.mem_flatMap, List.mem_map] at hl
    rcases hl with rfl | rfl | rfl | ⟨_, ⟨r, hr, rfl⟩, hl⟩ | rfl
    · omega
    · exact tableLine_length hw ha hb hc hA hB hC
    · omega
    · exact (hrow r hr).2 l hl
    · omega
  · refine Nat.mul_le_mul ?_ (by omega)
    simp only [List.length_cons, List.length_append, List.length_nil]
    omega

end Arinc
