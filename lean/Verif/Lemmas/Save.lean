import Verif.Model.Save
import Verif.Spec.Json
import Verif.Lemmas.Utf8
import Verif.Lemmas.File
import Verif.Lemmas.Stream
/-!
# Files that are written and read back
-/
namespace Arinc
open Py Spec

theorem encode_utf8 {s : Str} {b : List Nat} (h : utf8Encode s = some b) : Utf8 s b := by
  induction s generalizing b with
  | nil => cases h; exact .nil
  | cons c s ih =>
    unfold utf8Encode at h
    split at h
    · next hc =>
      obtain ⟨b', hb, rfl⟩ := Option.map_eq_some_iff.1 h
      exact .cons (bs := [c]) (.one hc) (ih hb)
    · split at h
      · next h1 hc =>
        obtain ⟨b', hb, rfl⟩ := Option.map_eq_some_iff.1 h
        exact .cons (bs := [_, _]) (.two (by omega) hc) (ih hb)
      · split at h
        · cases h
        · split at h
          · next h1 h2 h3 hc =>
            obtain ⟨b', hb, rfl⟩ := Option.map_eq_some_iff.1 h
            exact .cons (bs := [_, _, _]) (.three (by omega) hc h3) (ih hb)
          · split at h
            · next h1 h2 h3 h4 hc =>
              obtain ⟨b', hb, rfl⟩ := Option.map_eq_some_iff.1 h
              exact .cons (bs := [_, _, _, _]) (.four (by omega) hc) (ih hb)
            · cases h

theorem encode_iff (s : Str) : (∃ b, utf8Encode s = some b) ↔ NoSurrogates s := by
  induction s with
  | nil => exact ⟨fun _ c hc => (by cases hc), fun _ => ⟨[], rfl⟩⟩
  | cons c s ih =>
    have e : NoSurrogates (c :: s) ↔ (c < 0xD800 ∨ (0xDFFF < c ∧ c < 0x110000)) ∧ NoSurrogates s := by
      unfold NoSurrogates; simp
    rw [e, ← ih, utf8Encode]
    have m : ∀ f : List Nat → List Nat, (∃ b, (utf8Encode s).map f = some b) ↔ ∃ b, utf8Encode s = some b := by
      intro f; cases utf8Encode s <;> simp
    repeat' split
    all_goals first | rw [m] | skip
    all_goals first
      | exact ⟨fun h => ⟨by omega, h⟩, fun h => h.2⟩
      | exact ⟨fun ⟨b, hb⟩ => (by cases hb), fun h => by omega⟩

theorem decode_encode {s : Str} {b : List Nat} (h : utf8Encode s = some b) : utf8Decode b = some s :=
  utf8_complete (encode_utf8 h)

theorem encode_ascii {s : Str} (h : ∀ c ∈ s, c < 128) : utf8Encode s = some s := by
  induction s with
  | nil => rfl
  | cons c s ih =>
    unfold utf8Encode
    rw [if_pos (h c (by simp)), ih fun c hc => h c (by simp [hc])]
    rfl

theorem newlines_mem {w : Bool} {s : Str} {c : Nat} (h : c ∈ writeNewlines w s) : c ∈ s ∨ c = 13 := by
  unfold writeNewlines at h
  split at h
  · obtain ⟨d, hd, h⟩ := List.mem_flatMap.1 h
    split at h
    · next h10 => simp at h; rcases h with rfl | rfl; exact .inr rfl; exact .inl (h10 ▸ hd)
    · simp at h; exact .inl (h ▸ hd)
  · exact .inl h

theorem mem_newlines {w : Bool} {s : Str} {c : Nat} (h : c ∈ s) : c ∈ writeNewlines w s := by
  unfold writeNewlines
  split
  · refine List.mem_flatMap.2 ⟨c, h, ?_⟩
    split
    · next h10 => simp [h10]
    · simp
  · exact h

theorem newlines_surrogates (w : Bool) (s : Str) : NoSurrogates (writeNewlines w s) ↔ NoSurrogates s := by
  constructor
  · exact fun h c hc => h c (mem_newlines hc)
  · intro h c hc
    rcases newlines_mem hc with hc | rfl
    · exact h c hc
    · omega

theorem save_iff (w : Bool) (s : Str) : (∃ b, save w s = some b) ↔ NoSurrogates s := by
  unfold save; rw [encode_iff, newlines_surrogates]

/-- what is read back: on either system the line ends CR LF and CR have become LF -/
theorem universal_noCR {s : Str} (h : 13 ∉ s) : universalNewlines s = s := by
  induction s with
  | nil => rfl
  | cons c s ih =>
    rw [universalNewlines_ne (fun hc => h (by simp [hc])), ih fun hc => h (by simp [hc])]

theorem universal_CR (s : Str) : 13 ∉ universalNewlines s := by
  induction s using universalNewlines.induct
  all_goals
    rw [universalNewlines.eq_def]
    simp_all [eq_comm]

theorem universal_written {w : Bool} {s : Str} (h : 13 ∉ s) : universalNewlines (writeNewlines w s) = s := by
  unfold writeNewlines
  split
  · induction s with
    | nil => rfl
    | cons c s ih =>
      rw [List.flatMap_cons]
      split
      · next h10 =>
        subst h10
        show universalNewlines (13 :: 10 :: List.flatMap _ s) = _
        rw [universalNewlines, ih fun hc => h (by simp [hc])]
      · show universalNewlines (c :: List.flatMap _ s) = _
        rw [universalNewlines_ne (fun hc => h (by simp [hc])), ih fun hc => h (by simp [hc])]
  · exact universal_noCR h

theorem load_save {w : Bool} {s : Str} {b : List Nat} (h : save w s = some b) : load b = some s ↔ 13 ∉ s := by
  unfold load
  rw [decode_encode h]
  constructor
  · intro he
    have := universal_CR (writeNewlines w s)
    rw [Option.map_some, Option.some.injEq] at he
    rwa [he] at this
  · intro h13; rw [Option.map_some, universal_written h13]

theorem charmap_ascii {t : CodePage} (ht : ∀ b, b < 128 → t b = some b) {s : Str} (h : ∀ c ∈ s, c < 128) :
    charmapDecode t s = some s := by
  induction s with
  | nil => rfl
  | cons c s ih =>
    unfold charmapDecode
    rw [ht c (h c (by simp))]
    simp only
    rw [ih fun c hc => h c (by simp [hc])]

end Arinc
