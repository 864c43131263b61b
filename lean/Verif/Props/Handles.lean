import Verif.Lemmas.Handles
import Verif.Props.Samples
/-!
# C93: files and directories are closed
-/
namespace Arinc
open Py Spec

section
variable [PyUnicode]

omit [PyUnicode] in
theorem block_held {acts : List Act} {n : Nat}
    (h : acts = [] ∨ ∃ q, Quiet q ∧ acts = .openFile n :: (q ++ [.closeFile n])) :
    held [] acts = [] ∧ ∀ p, p <+: acts → (held [] p).length ≤ 1 := by
  have hb : Blocks n acts := by
    rcases h with rfl | ⟨q, hq, rfl⟩
    · exact .nil n
    · exact .cons hq (.nil _)
  refine ⟨hb.held [], fun p hp => ?_⟩
  rcases hb.during [] hp with h | ⟨m, h⟩ <;> rw [h] <;> simp

/-- C93: `read_file` has closed its file when it ends, whether it returns, raises an exception or is interrupted after
    any number `k` of acts, and holds no more than this file at any moment. -/
theorem C93_read_file (f : FileObj) (output : Bool) (legs : Legs) (k : Option Nat) :
    held [] (readFileIo 0 f output legs k).acts = [] ∧
    ∀ p, p <+: (readFileIo 0 f output legs k).acts → (held [] p).length ≤ 1 :=
  block_held ((Io.withFile_acts 0 f (parseLinesIo_quiet output · legs) k).imp (·.1) id)

/-- C93: and so does `search`. -/
theorem C93_search (f : FileObj) (filters : Filters) (k : Option Nat) :
    held [] (searchIo f filters k).acts = [] ∧
    ∀ p, p <+: (searchIo f filters k).acts → (held [] p).length ≤ 1 :=
  block_held ((Io.withFile_acts 0 f (searchLinesIo_quiet filters · 0) k).imp (·.1) id)

theorem readFolderIo_acts (fs : List FileObj) (legs : Legs) (k : Option Nat) :
    ((readFolderIo (some fs) legs k).acts = [] ∧ (readFolderIo (some fs) legs k).res = .error .interrupt) ∨
    ∃ b, Blocks 0 b ∧
      (((readFolderIo (some fs) legs k).res = .ok () ∧
        (readFolderIo (some fs) legs k).acts = .openDir :: (b ++ [.closeDir])) ∨
       ((∃ e, (readFolderIo (some fs) legs k).res = .error e) ∧
        (readFolderIo (some fs) legs k).acts = .openDir :: b)) := by
  have key : ∀ k', (Io.act .openDir k).res = .ok () → (Io.act .openDir k).acts = [.openDir] →
      (Io.act .openDir k).left = k' → ∃ b, Blocks 0 b ∧
      (((readFolderIo (some fs) legs k).res = .ok () ∧
        (readFolderIo (some fs) legs k).acts = .openDir :: (b ++ [.closeDir])) ∨
       ((∃ e, (readFolderIo (some fs) legs k).res = .error e) ∧
        (readFolderIo (some fs) legs k).acts = .openDir :: b)) := by
    intro k' h1 h2 h3
    obtain ⟨b, hb, h⟩ := readFilesIo_acts 0 fs legs k'
    refine ⟨b, hb, ?_⟩
    simp only [readFolderIo, Io.andThen, h1, h2, h3]
    rcases h with ⟨ha, hc⟩ | ⟨ha, hc⟩
    · exact .inl ⟨ha, by rw [hc]; rfl⟩
    · exact .inr ⟨ha, by rw [hc]; rfl⟩
  cases k with
  | none => exact .inr (key none rfl rfl rfl)
  | some k => cases k with
    | zero => exact .inl ⟨rfl, rfl⟩
    | succ k => exact .inr (key (some k) rfl rfl rfl)

/-- C93: `read_folder`, however it ends, has closed all its files; at any moment it holds one file at most, and the
    directory; it opens the entries in their order, each once, up to some entry. -/
theorem C93_folder_files (entries : Option (List FileObj)) (legs : Legs) (k : Option Nat) :
    (∀ n, .file n ∉ held [] (readFolderIo entries legs k).acts) ∧
    (∀ p, p <+: (readFolderIo entries legs k).acts →
      held [] p = [] ∨ held [] p = [.dir] ∨ ∃ n, held [] p = [.file n, .dir]) ∧
    ∃ m, opened (readFolderIo entries legs k).acts = List.range m := by
  cases entries with
  | none =>
    refine ⟨fun n h => (nomatch h), fun p hp => .inl ?_, 0, rfl⟩
    rw [List.prefix_nil.1 hp]
    rfl
  | some fs =>
    rcases readFolderIo_acts fs legs k with ⟨ha, -⟩ | ⟨b, hb, ⟨-, ha⟩ | ⟨-, ha⟩⟩
    · rw [ha]
      refine ⟨fun n h => (nomatch h), fun p hp => .inl ?_, 0, rfl⟩
      rw [List.prefix_nil.1 hp]
      rfl
    · rw [ha]
      refine ⟨fun n h => ?_, fun p hp => ?_, ?_⟩
      · rw [held, held_append, hb.held] at h
        cases h
      · cases p with
        | nil => exact .inl rfl
        | cons x p =>
          obtain ⟨rfl, hp'⟩ := List.cons_prefix_cons.1 hp
          rcases prefix_append_cases hp' with h1 | ⟨q, h1, rfl⟩
          · rcases hb.during [.dir] h1 with h | ⟨m, h⟩
            · exact .inr (.inl h)
            · exact .inr (.inr ⟨m, h⟩)
          · rw [held, held_append, hb.held]
            cases q with
            | nil => exact .inr (.inl rfl)
            | cons y q =>
              obtain ⟨rfl, h2⟩ := List.cons_prefix_cons.1 h1
              rw [List.prefix_nil.1 h2]
              exact .inl rfl
      · obtain ⟨m, hm⟩ := hb.opened
        refine ⟨m, ?_⟩
        show opened (b ++ [.closeDir]) = _
        rw [opened_append, hm]
        simp [opened, List.range_eq_range']
    · rw [ha]
      refine ⟨fun n h => ?_, fun p hp => ?_, ?_⟩
      · rw [held, hb.held] at h
        rcases h with _ | ⟨_, h⟩
        cases h
      · cases p with
        | nil => exact .inl rfl
        | cons x p =>
          obtain ⟨rfl, hp'⟩ := List.cons_prefix_cons.1 hp
          rcases hb.during [.dir] hp' with h | ⟨m, h⟩
          · exact .inr (.inl h)
          · exact .inr (.inr ⟨m, h⟩)
      · obtain ⟨m, hm⟩ := hb.opened
        refine ⟨m, ?_⟩
        show opened b = _
        rw [hm, List.range_eq_range']

/-- C93, the part that holds of the directory: `read_folder` has closed it if it returns. What is missing: it has not
    if it raises (`C93_folder_raises`). -/
theorem C93_folder_returns_partial (entries : Option (List FileObj)) (legs : Legs) (k : Option Nat)
    (h : (readFolderIo entries legs k).res = .ok ()) : held [] (readFolderIo entries legs k).acts = [] := by
  cases entries with
  | none => cases h
  | some fs =>
    rcases readFolderIo_acts fs legs k with ⟨-, hr⟩ | ⟨b, hb, ⟨-, ha⟩ | ⟨⟨e, hr⟩, -⟩⟩
    · rw [hr] at h; cases h
    · rw [ha, held, held_append, hb.held]; rfl
    · rw [hr] at h; cases h

/-- C93: whenever an exception leaves `read_folder` after the directory was opened, the directory is still open. -/
theorem C93_folder_raises (fs : List FileObj) (legs : Legs) (k : Option Nat) (e : Stop)
    (h : (readFolderIo (some fs) legs k).res = .error e) (ho : (readFolderIo (some fs) legs k).acts ≠ []) :
    held [] (readFolderIo (some fs) legs k).acts = [.dir] := by
  rcases readFolderIo_acts fs legs k with ⟨ha, -⟩ | ⟨b, hb, ⟨hr, -⟩ | ⟨-, ha⟩⟩
  · exact absurd ha ho
  · rw [hr] at h; cases h
  · rw [ha, held, hb.held]

omit [PyUnicode] in
theorem ends_lift (r : Except Exc Unit) : ends (Io.lift r) r := by
  cases r with
  | error e => rfl
  | ok u => rfl

omit [PyUnicode] in
theorem ends_map {α : Type} (r : Except Exc Unit) (x : α) :
    ends (Io.lift (r.map fun _ => x)) r := by
  cases r with
  | error e => rfl
  | ok u => rfl

/-- C93: these are the calls of the other properties: if they are not interrupted, they end in the same way and print
    the same. -/
theorem C93_same (f : FileObj) (output : Bool) (filters : Filters) (entries : Option (List FileObj)) (legs : Legs) :
    (ends (readFileIo 0 f output legs none).res (readFile f output legs).res ∧
      actsPrint (readFileIo 0 f output legs none).acts = (readFile f output legs).out) ∧
    (ends (searchIo f filters none).res (search f filters).1 ∧
      actsPrint (searchIo f filters none).acts = (search f filters).2) ∧
    (ends (readFolderIo entries legs none).res (readFolder entries legs).res ∧
      actsPrint (readFolderIo entries legs none).acts = (readFolder entries legs).out) := by
  obtain ⟨a1, a2, -⟩ := (sim_readFile 0 f output legs).whole
  obtain ⟨b1, b2, -⟩ := (sim_search f filters).whole
  obtain ⟨c1, c2, -⟩ := (sim_readFolder entries legs).whole
  exact ⟨⟨a1 ▸ ends_map _ _, a2⟩, ⟨b1 ▸ ends_lift _, b2⟩, ⟨c1 ▸ ends_lift _, c2⟩⟩

/-- C93: if they are interrupted, they print a first part of it; if they end by themselves before, all. -/
theorem C93_interrupted (f : FileObj) (output : Bool) (filters : Filters) (entries : Option (List FileObj))
    (legs : Legs) (k : Option Nat) :
    (actsPrint (readFileIo 0 f output legs k).acts <+: (readFile f output legs).out ∧
      ((readFileIo 0 f output legs k).res ≠ .error .interrupt →
        actsPrint (readFileIo 0 f output legs k).acts = (readFile f output legs).out)) ∧
    (actsPrint (searchIo f filters k).acts <+: (search f filters).2 ∧
      ((searchIo f filters k).res ≠ .error .interrupt → actsPrint (searchIo f filters k).acts = (search f filters).2)) ∧
    (actsPrint (readFolderIo entries legs k).acts <+: (readFolder entries legs).out ∧
      ((readFolderIo entries legs k).res ≠ .error .interrupt →
        actsPrint (readFolderIo entries legs k).acts = (readFolder entries legs).out)) := by
  have a := sim_readFile 0 f output legs
  have b := sim_search f filters
  have c := sim_readFolder entries legs
  exact ⟨⟨a.pre k, fun h => ((a.fin k).resolve_left h).2⟩, ⟨b.pre k, fun h => ((b.fin k).resolve_left h).2⟩,
    ⟨c.pre k, fun h => ((c.fin k).resolve_left h).2⟩⟩

end

section
attribute [local instance] Py.Tables.cpython311

/-- C93 is false of `read_folder`: in a folder with a file that cannot be decoded (any byte above 127 that is not
    UTF-8), or with a subfolder, it raises and leaves the directory open, without being interrupted. -/
theorem C93_refuted : ∃ fs legs e, (readFolderIo (some fs) legs none).res = .error (.exc e) ∧
    held [] (readFolderIo (some fs) legs none).acts = [.dir] :=
  ⟨[.text Sample.airport, .undecodable], legTypeDesc, .valueError, by decide +kernel, by decide +kernel⟩

/-- a folder of two files: the second is opened when the first is closed -/
example : ((readFolderIo (some [.text Sample.airportBadCont, .text []]) legTypeDesc none).acts.filter
      fun a => match a with | .print _ => false | _ => true) =
    [.openDir, .openFile 0, .closeFile 0, .openFile 1, .closeFile 1, .closeDir] ∧
    (actsPrint (readFolderIo (some [.text Sample.airportBadCont, .text []]) legTypeDesc none).acts).length = 3 ∧
    (readFolderIo (some [.text Sample.airportBadCont, .text []]) legTypeDesc none).res = .ok () := by decide +kernel

/-- interrupted before the second message -/
example : (readFolderIo (some [.text Sample.airportBadCont, .text []]) legTypeDesc (some 3)).res = .error .interrupt ∧
    held [] (readFolderIo (some [.text Sample.airportBadCont, .text []]) legTypeDesc (some 3)).acts = [.dir] ∧
    (actsPrint (readFolderIo (some [.text Sample.airportBadCont, .text []]) legTypeDesc (some 3)).acts).length = 1 := by
  decide +kernel

end

end Arinc
