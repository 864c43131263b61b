import Verif.Lemmas.Encoding
import Verif.Props.Bytes
/-!
# C101: the encoding of the system

`t` is the code page of a system, the other system uses UTF-8. `s` is the text of the file `b` on the latter, `s'` on the
former.
-/
namespace Arinc
open Py Spec

section
variable [PyUnicode]

omit [PyUnicode] in
/-- C101: What a file is taken to be in a code page: the characters of its bytes, or no text. -/
theorem C101_text (t : CodePage) (b : List ℕ) :
    (∀ s, (Disk.bytes b).fileIn t = .text s ↔ InPage t s b) ∧
    ((Disk.bytes b).fileIn t = .undecodable ↔ ∀ s, ¬ InPage t s b) := by
  have he : (Disk.bytes b).fileIn t =
      match charmapDecode t b with
      | some s => .text s
      | none => .undecodable := rfl
  cases h : charmapDecode t b with
  | none =>
    rw [h] at he
    rw [he]
    refine ⟨fun s => ⟨nofun, fun h' => ?_⟩, ⟨fun _ s h' => ?_, fun _ => rfl⟩⟩ <;>
      · rw [charmap_iff.2 h'] at h; cases h
  | some u =>
    rw [h] at he
    rw [he]
    refine ⟨fun s => ?_, ⟨nofun, fun h' => absurd (charmap_iff.1 h) (h' u)⟩⟩
    rw [← charmap_iff, h]
    simp

/-- C101: A file of ASCII is the same on all systems whose code page extends ASCII. -/
theorem C101_ascii {t : CodePage} (ht : ExtendsAscii t) {b : List ℕ} (hb : ∀ c ∈ b, c < 128) (output : Bool)
    (legs : Legs) (filters : Filters) :
    readFileIn t (.bytes b) output legs = readFileAt (.bytes b) output legs ∧
    searchIn t (.bytes b) filters = searchAt (.bytes b) filters := by
  unfold readFileIn readFileAt searchIn searchAt
  rw [file_text (utf8_ascii hb), ((C101_text t b).1 b).2 (inPage_ascii ht hb)]
  exact ⟨rfl, rfl⟩

/-- C101: So is a folder of such files. -/
theorem C101_folder {t : CodePage} (ht : ExtendsAscii t) (entries : Option (List Disk))
    (hb : ∀ ds, entries = some ds → ∀ b, Disk.bytes b ∈ ds → ∀ c ∈ b, c < 128) (legs : Legs) :
    readFolderIn t entries legs = readFolderAt entries legs := by
  unfold readFolderIn readFolderAt
  cases entries with
  | none => rfl
  | some ds =>
    have : ds.map (Disk.fileIn t) = ds.map Disk.file := by
      refine List.map_congr_left fun d hd => ?_
      cases d with
      | unopenable => rfl
      | bytes b =>
        have := hb ds rfl b hd
        rw [file_text (utf8_ascii this), ((C101_text t b).1 b).2 (inPage_ascii ht this)]
    simp only [Option.map_some, this]

/-- C101: A line that is a record in UTF-8 and has a character outside ASCII is none in the code page: it is ignored
    without a message. -/
theorem C101_lost {t : CodePage} (ht : ExtendsAscii t) (hn : LeadsAreLetters t) {l l' : Str} {b : List ℕ}
    (hl : Utf8 l b) (hl' : InPage t l' b) (hw : WellShaped l) (ha : ¬ ∀ c ∈ l, c < 128) (r : Record) :
    r.read l' = ⟨.ok false, r, []⟩ := by
  have hv : validate l' = false := by
    cases h : validate l' with
    | false => rfl
    | true => exact absurd (garbled_record ht hn (garbled_of hl hl') hw (validate_iff.1 h)) ha
  simp [Record.read, hv]

/-- C101 (partial): If every line of a file is of ASCII or a record in UTF-8, then what is shown and found of it on a
    system with a code page is what is shown and found of its lines of ASCII. The claim that the same is shown on all
    systems is false: `C101_refuted`. -/
theorem C101_file_partial {t : CodePage} (ht : ExtendsAscii t) (hn : LeadsAreLetters t) {s s' a : Str} {ls : List Str}
    {b : List ℕ} (hs : Utf8 s b) (hs' : InPage t s' b) (hls : Lines s ls)
    (hr : ∀ l ∈ ls, (∀ c ∈ l, c < 128) ∨ WellShaped l)
    (ha : Lines a (ls.filter fun l => l.all fun c => decide (c < 128))) :
    (∀ output legs, readFileIn t (.bytes b) output legs = readFile (.text a) output legs) ∧
    ∀ filters, searchIn t (.bytes b) filters = search (.text a) filters := by
  obtain ⟨ls', h1, h2⟩ := garbled_lines ht hls (garbled_of hs hs')
  obtain ⟨h3, h4⟩ := garbled_same ht hn h2 hr
  unfold readFileIn searchIn
  rw [((C101_text t b).1 s').2 hs']
  refine ⟨fun output legs => ?_, fun filters => ?_⟩
  · rw [readFile_lines h1, readFile_lines ha, h3]
  · rw [search_lines h1, search_lines ha, h4]

/-- C101: Bytes that the code page does not define: nothing of the file is shown. -/
theorem C101_undefined {t : CodePage} {b : List ℕ} {x : ℕ} (hx : x ∈ b) (ht : t x = none) (output : Bool) (legs : Legs)
    (filters : Filters) :
    readFileIn t (.bytes b) output legs = ⟨.error .valueError, [], legs⟩ ∧
    searchIn t (.bytes b) filters = (.error .valueError, []) := by
  have hno : ∀ s, ¬ InPage t s b := by
    intro s h
    induction h with
    | nil => cases hx
    | cons h _ ih =>
      cases hx with
      | head => rw [h] at ht; cases ht
      | tail _ hx => exact ih hx
  unfold readFileIn searchIn
  rw [(C101_text t b).2.2 hno]
  exact ⟨rfl, rfl⟩

end

section
attribute [local instance] Py.Tables.cpython311

/-- the hypotheses are met by Windows-1252 and ISO 8859-1 -/
theorem extends_ascii : ExtendsAscii cp1252 ∧ ExtendsAscii latin1 := by
  have h : ∀ b : Fin 256, ((cp1252 b.1).all fun c => b.1 < 128 && c == b.1 || 128 ≤ b.1 && 128 ≤ c) = true := by
    decide +kernel
  refine ⟨⟨fun b hb => ?_, fun b c hb hc => ?_⟩, ⟨fun b hb => ?_, fun b c hb hc => ?_⟩⟩
  · simp [cp1252, hb]
  · by_cases h256 : b < 256
    · have := h ⟨b, h256⟩
      simp only [hc, Option.all_some, Bool.or_eq_true, Bool.and_eq_true, decide_eq_true_eq, beq_iff_eq] at this
      omega
    · rw [cp1252, if_neg (by omega), if_neg (by omega)] at hc
      cases hc
  · rw [latin1, if_pos (by omega)]
  · simp only [latin1] at hc
    split at hc
    · cases hc; exact hb
    · cases hc

theorem leads_letters : LeadsAreLetters cp1252 ∧ LeadsAreLetters latin1 := by
  have h : ∀ b : Fin 256, 0xC2 ≤ b.1 → PyUnicode.numeric b.1 = false ∧ isSpace b.1 = false := by decide +kernel
  refine ⟨fun b c h1 h2 hc => ?_, fun b c h1 h2 hc => ?_⟩
  · rw [cp1252, if_pos (by omega)] at hc
    cases hc
    exact h ⟨b, by omega⟩ h1
  · rw [latin1, if_pos (by omega)] at hc
    cases hc
    exact h ⟨b, by omega⟩ h1

/-- a file of a record of ASCII and one with an é: the hypotheses of `C101_lost` and `C101_file_partial` are met -/
example :
    let é := Sample.airport.set 100 0xE9
    let b := Sample.airport.take 100 ++ [0xC3, 0xA9] ++ Sample.airport.drop 101
    utf8Decode b = some é ∧ (charmapDecode cp1252 b).isSome ∧ validate é = true ∧ ¬ (∀ c ∈ é, c < 128) ∧
    utf8Decode (Sample.vhf ++ [10] ++ b) = some (Sample.vhf ++ 10 :: é) ∧
    [Sample.vhf, é].filter (fun l => l.all fun c => decide (c < 128)) = [Sample.vhf] ∧
    (readFileAt (.bytes (Sample.vhf ++ [10] ++ b)) true legTypeDesc).out.length = 2 ∧
    (readFileIn cp1252 (.bytes (Sample.vhf ++ [10] ++ b)) true legTypeDesc).out.length = 1 := by
  decide +kernel

/-- C101 is false: the same file on a system with UTF-8 and on one with Windows-1252. A record with an é in it is shown on
    the former only. A line with an é that is one column short is shown as a record on the latter only. And for a file
    with an Á nothing is shown on the latter, not even the other records. -/
theorem C101_refuted :
    let air := Sample.airport
    let é := air.take 100 ++ [0xC3, 0xA9] ++ air.drop 101
    let short := air.take 100 ++ [0xC3, 0xA9] ++ air.drop 102
    let Á := air ++ [10] ++ air.take 100 ++ [0xC3, 0x81] ++ air.drop 101
    ((readFileAt (.bytes é) true legTypeDesc).out.length = 1 ∧
      (readFileIn cp1252 (.bytes é) true legTypeDesc).out = [] ∧
      (readFileIn cp1252 (.bytes é) true legTypeDesc).res = .ok ()) ∧
    ((readFileAt (.bytes short) true legTypeDesc).out = [] ∧
      (readFileAt (.bytes short) true legTypeDesc).res = .ok () ∧
      (readFileIn cp1252 (.bytes short) true legTypeDesc).out.length = 1) ∧
    ((readFileAt (.bytes Á) true legTypeDesc).out.length = 2 ∧
      (readFileIn cp1252 (.bytes Á) true legTypeDesc).out = [] ∧
      (readFileIn cp1252 (.bytes Á) true legTypeDesc).res = .error .valueError) := by
  decide +kernel

end
end Arinc
