import Verif.Spec.Live
import Verif.Props.Files
/-!
# C98: a folder that changes while it is read
-/
namespace Arinc
open Py Spec

section
variable [PyUnicode]

omit [PyUnicode] in
theorem scanned_split {d : ChangingFolder} {start : Nat} {entries : List (Str × Nat)} (h : Scanned d start entries)
    {name : Str} {f : FileObj} (hs : Stable d start name f) :
    ∃ a t b, entries = a ++ (name, t) :: b ∧ start ≤ t ∧ (∀ e ∈ a, e.1 ≠ name) ∧ ∀ e ∈ b, e.1 ≠ name := by
  have hc := h.all name (fun t ht => by rw [hs t ht]; simp)
  have hm : name ∈ entries.map (·.1) := List.count_pos_iff.1 (by omega)
  obtain ⟨⟨n, t⟩, he, hn⟩ := List.mem_map.1 hm
  simp only at hn
  subst hn
  obtain ⟨a, b, rfl⟩ := List.append_of_mem he
  simp only [List.map_append, List.map_cons, List.count_append, List.count_cons_self] at hc
  refine ⟨a, t, b, rfl, h.later (n, t) (by simp), fun e he' hne => ?_, fun e he' hne => ?_⟩
  · have := List.count_pos_iff.2 (hne ▸ List.mem_map_of_mem (f := fun e : Str × Nat => e.1) he')
    omega
  · have := List.count_pos_iff.2 (hne ▸ List.mem_map_of_mem (f := fun e : Str × Nat => e.1) he')
    omega

theorem readFiles_ok_all {fs : List FileObj} {legs : Legs} (hl : Grown legs) (h : (readFiles fs legs).res = .ok ()) :
    ∀ f ∈ fs, ∀ e, (readFile f true legTypeDesc).res ≠ .error e := by
  induction fs generalizing legs with
  | nil => intro f hf; cases hf
  | cons g fs ih =>
    obtain ⟨h1, -, h3⟩ := readFile_legs g true hl
    simp only [readFiles] at h
    rw [h1] at h
    intro f hf e he
    cases hg : (readFile g true legTypeDesc).res with
    | error e' => rw [hg] at h; cases h
    | ok x =>
      rw [hg] at h
      rcases List.mem_cons.1 hf with rfl | hf
      · rw [hg] at he; cases he
      · exact ih h3 h f hf e he

/-- C98 (partial): If `read_folder` returns, then every file that is there all the time and does not change has been
    shown exactly once, as `read_file` shows it, whatever other programs did with other files. Missing: the case that
    it raises an exception, of which this is false (`C98_refuted`). -/
theorem C98_stable_partial {d : ChangingFolder} {start : Nat} {entries : List (Str × Nat)} (h : Scanned d start entries)
    {name : Str} {f : FileObj} (hs : Stable d start name f) {legs : Legs} (hl : Grown legs)
    (hok : (readFolderLive d entries legs).res = .ok ()) :
    ∃ a t b, entries = a ++ (name, t) :: b ∧ (∀ e ∈ a, e.1 ≠ name) ∧ (∀ e ∈ b, e.1 ≠ name) ∧
      (readFile f true legTypeDesc).res = .ok () ∧
      (readFolderLive d entries legs).out = (readFolderLive d a legTypeDesc).out ++ (readFile f true legTypeDesc).out ++
        (readFolderLive d b legTypeDesc).out := by
  obtain ⟨a, t, b, rfl, ht, ha, hb⟩ := scanned_split h hs
  have hopen : d.opened name t = f := by simp [ChangingFolder.opened, hs t ht]
  have hnone := readFiles_ok_all hl hok
  have hmap : (a ++ (name, t) :: b).map (fun e => d.opened e.1 e.2) =
      a.map (fun e => d.opened e.1 e.2) ++ f :: b.map (fun e => d.opened e.1 e.2) := by simp [hopen]
  rw [hmap] at hnone
  refine ⟨a, t, b, rfl, ha, hb, ?_, ?_⟩
  · cases hr : (readFile f true legTypeDesc).res with
    | error e => exact absurd hr (hnone f (by simp) e)
    | ok x => rfl
  · unfold readFolderLive
    rw [hmap, (readFiles_ok hnone hl).2,
      (readFiles_ok (fun g hg => hnone g (List.mem_append_left _ hg)) grown_init).2,
      (readFiles_ok (fun g hg => hnone g (List.mem_append_right _ (List.mem_cons_of_mem _ hg))) grown_init).2]
    simp

/-- C98: A file that disappears between the listing and its opening ends `read_folder` with an `OSError`; what comes
    after it is not shown, whether it changed or not. -/
theorem C98_vanished (d : ChangingFolder) (a b : List (Str × Nat)) (name : Str) (t : Nat) (hn : d t name = none)
    {legs : Legs} (hl : Grown legs) (hok : (readFolderLive d a legs).res = .ok ()) :
    (readFolderLive d (a ++ (name, t) :: b) legs).res = .error .osError ∧
    (readFolderLive d (a ++ (name, t) :: b) legs).out = (readFolderLive d a legs).out := by
  have ha := readFiles_ok_all hl hok
  have hopen : d.opened name t = .unopenable := by simp [ChangingFolder.opened, hn]
  have hmap : (a ++ (name, t) :: b).map (fun e => d.opened e.1 e.2) =
      a.map (fun e => d.opened e.1 e.2) ++ .unopenable :: b.map (fun e => d.opened e.1 e.2) := by simp [hopen]
  unfold readFolderLive
  rw [hmap]
  obtain ⟨h1, h2⟩ := readFiles_stop (f := .unopenable) (post := b.map (fun e => d.opened e.1 e.2)) (e := .osError) ha rfl hl
  refine ⟨h1, ?_⟩
  rw [h2, (readFiles_ok ha hl).2]
  simp [readFile, FileObj.readlines]

/-- C98: In a folder that does not change, the moments do not matter: `read_folder` does what the files say. -/
theorem C98_unchanged {d : ChangingFolder} {start : Nat} {entries : List (Str × Nat)} (h : Scanned d start entries)
    (now : Str → Option FileObj) (hd : ∀ t, start ≤ t → d t = now) (legs : Legs) :
    ∃ names : List Str, names.Nodup ∧ (∀ name, name ∈ names ↔ now name ≠ none) ∧
      entries.map (·.1) = names ∧
      ∃ fs, names.map now = fs.map some ∧ readFolderLive d entries legs = readFolder (some fs) legs := by
  have hex : ∀ e ∈ entries, now e.1 ≠ none := by
    intro e he
    obtain ⟨t, h1, -, h3⟩ := h.existed e he
    rwa [hd t h1] at h3
  have hmem : ∀ name, name ∈ entries.map (·.1) ↔ now name ≠ none := by
    intro name
    constructor
    · rintro hm
      obtain ⟨e, he, rfl⟩ := List.mem_map.1 hm
      exact hex e he
    · intro hn
      have := h.all name (fun t ht => by rw [hd t ht]; exact hn)
      exact List.count_pos_iff.1 (by omega)
  refine ⟨_, ?_, hmem, rfl, entries.map (fun e => d.opened e.1 e.2), ?_, rfl⟩
  · rw [List.nodup_iff_count]
    intro name
    by_cases hm : name ∈ entries.map (·.1)
    · exact Nat.le_of_eq (h.all name (fun t ht => by rw [hd t ht]; exact (hmem name).1 hm))
    · rw [List.count_eq_zero_of_not_mem hm]
      exact Nat.zero_le 1
  · rw [List.map_map, List.map_map]
    apply List.map_congr_left
    intro e he
    have h1 := hex e he
    simp only [Function.comp, ChangingFolder.opened, hd e.2 (h.later e he)]
    cases hn : now e.1 with
    | none => exact absurd hn h1
    | some f => rfl

end

section
attribute [local instance] Py.Tables.cpython311

/-- two files; the first is removed at the moment 1 -/
def shrinking : ChangingFolder := fun t name =>
  if name = py!"a" then (if t = 0 then some (.text Sample.vhf) else none)
  else if name = py!"b" then some (.text Sample.airport)
  else none

theorem shrinking_scanned (t : Nat) : Scanned shrinking 0 [(py!"a", t), (py!"b", 2)] := by
  refine ⟨fun e _ => Nat.zero_le _, fun e he => ⟨0, Nat.le_refl _, Nat.zero_le _, ?_⟩, fun name hn => ?_⟩
  · simp only [List.mem_cons, List.not_mem_nil, or_false] at he
    rcases he with rfl | rfl
    · exact fun h => nomatch h
    · exact fun h => nomatch h
  · have h1 := hn 1 (Nat.zero_le _)
    by_cases ha : name = py!"a"
    · subst ha
      exact absurd rfl h1
    · by_cases hb : name = py!"b"
      · subst hb
        rfl
      · simp [shrinking, ha, hb] at h1

/-- C98 is false if `read_folder` raises: a file that is there all the time is not shown because another is removed
    between its listing and its opening. -/
theorem C98_refuted : ∃ (d : ChangingFolder) (entries : List (Str × Nat)) (name : Str) (f : FileObj),
    Scanned d 0 entries ∧ Stable d 0 name f ∧ (readFile f true legTypeDesc).res = .ok () ∧
    (readFile f true legTypeDesc).out.length = 1 ∧ (readFolderLive d entries legTypeDesc).res = .error .osError ∧
    (readFolderLive d entries legTypeDesc).out = [] := by
  refine ⟨shrinking, _, py!"b", .text Sample.airport, shrinking_scanned 1, fun t _ => ?_, ?_⟩
  · simp [shrinking]
  · decide +kernel

/-- the hypotheses of C98_stable_partial are met: the first file was opened before it was removed -/
example : Scanned shrinking 0 [(py!"a", 0), (py!"b", 2)] ∧ Stable shrinking 0 (py!"b") (.text Sample.airport) ∧
    (readFolderLive shrinking [(py!"a", 0), (py!"b", 2)] legTypeDesc).res = .ok () ∧
    (readFolderLive shrinking [(py!"a", 0), (py!"b", 2)] legTypeDesc).out.length = 2 :=
  ⟨shrinking_scanned 0, fun t _ => by simp [shrinking], by decide +kernel, by decide +kernel⟩

/-- the hypotheses of C98_vanished are met -/
example : shrinking 1 (py!"a") = none ∧ (readFolderLive shrinking [(py!"b", 0)] legTypeDesc).res = .ok () :=
  ⟨by decide, by decide +kernel⟩

end
end Arinc
