import Verif.Spec.Bytes
import Verif.Lemmas.Utf8
import Verif.Props.Chars
/-!
# C89, C90: files of any bytes
-/
namespace Arinc
open Py Spec Spec.Std

theorem file_text {b : List ℕ} {s : Str} (h : Utf8 s b) : (Disk.bytes b).file = .text s := by
  simp only [Disk.file, utf8_complete h]

theorem file_invalid {b : List ℕ} (h : NotUtf8 b) : (Disk.bytes b).file = .undecodable := by
  simp only [Disk.file]
  cases hd : utf8Decode b with
  | none => rfl
  | some s => exact absurd (utf8_iff.1 hd) (h s)

theorem utf8_or (b : List ℕ) : (∃ s, Utf8 s b) ∨ NotUtf8 b := by
  by_cases h : ∃ s, Utf8 s b
  · exact Or.inl h
  · exact Or.inr fun s hs => h ⟨s, hs⟩

/-- C89: a file is the text of which its bytes are the UTF-8 encoding. -/
theorem C89_text (b : List ℕ) (s : Str) : (Disk.bytes b).file = .text s ↔ Utf8 s b := by
  refine ⟨fun h => ?_, file_text⟩
  rcases utf8_or b with ⟨t, ht⟩ | hn
  · rw [file_text ht] at h
    injection h with h
    exact h ▸ ht
  · rw [file_invalid hn] at h; cases h

section
variable [PyUnicode]

/-- C89: what `read_file` does with a file of any bytes. -/
theorem C89_read_file (b : List ℕ) (output : Bool) {legs : Legs} (hl : Grown legs) (res : Except Exc Unit)
    (out : List Event) :
    ((readFileAt (.bytes b) output legs).res = res ∧ (readFileAt (.bytes b) output legs).out = out) ↔
      BytesDo output b res out := by
  unfold readFileAt
  rcases utf8_or b with ⟨s, hs⟩ | hn
  · obtain ⟨ls, hls⟩ := lines_exist s
    rw [file_text hs, C86_read_file hls output hl]
    refine ⟨fun h => .text hs hls h, fun h => ?_⟩
    cases h with
    | text hb hs' h =>
      obtain rfl := utf8_unique hs hb
      exact (C86_read_file hls output hl _ _).1 ((C86_read_file hs' output hl _ _).2 h)
    | invalid h => exact absurd hs (h s)
  · rw [file_invalid hn]
    refine ⟨fun ⟨h1, h2⟩ => h1 ▸ h2 ▸ .invalid hn, fun h => ?_⟩
    cases h with
    | text hb _ _ => exact absurd hb (hn _)
    | invalid _ => exact ⟨rfl, rfl⟩

/-- C89: what `search` does with a file of any bytes. -/
theorem C89_search (b : List ℕ) (filters : Filters) (res : Except Exc Unit) (out : List Event) :
    searchAt (.bytes b) filters = (res, out) ↔ BytesSearch filters b res out := by
  unfold searchAt
  rcases utf8_or b with ⟨s, hs⟩ | hn
  · obtain ⟨ls, hls⟩ := lines_exist s
    rw [file_text hs, C80_search hls filters]
    refine ⟨fun h => .text hs hls h, fun h => ?_⟩
    cases h with
    | text hb hs' h =>
      obtain rfl := utf8_unique hs hb
      exact (C80_search hls filters _ _).1 ((C80_search hs' filters _ _).2 h)
    | invalid h => exact absurd hs (h s)
  · rw [file_invalid hn]
    refine ⟨fun h => ?_, fun h => ?_⟩
    · cases h; exact .invalid hn
    · cases h with
      | text hb _ _ => exact absurd hb (hn _)
      | invalid _ => rfl

/-- the specification of a folder of bytes is that of a folder of texts -/
theorem diskDoes_iff (ds : List Disk) (res : Except Exc Unit) (out : List Event) :
    FolderDoes (ds.map Disk.file) res out ↔ DiskDoes ds res out := by
  induction ds generalizing res out with
  | nil => exact ⟨fun h => by cases h; exact .done, fun h => by cases h; exact .done⟩
  | cons d ds ih =>
    cases d with
    | unopenable => exact ⟨fun h => by cases h; exact .unopenable, fun h => by cases h; exact .unopenable⟩
    | bytes b =>
      rw [List.map_cons]
      rcases utf8_or b with ⟨s, hs⟩ | hn
      · rw [file_text hs]
        refine ⟨fun h => ?_, fun h => ?_⟩
        · cases h with
          | file hls h t => exact .file (.text hs hls h) ((ih _ _).1 t)
          | stop hls h => exact .stop (.text hs hls h)
        · cases h with
          | file h t =>
            cases h with
            | text hb hls h => obtain rfl := utf8_unique hs hb; exact .file hls h ((ih _ _).2 t)
          | stop h =>
            cases h with
            | text hb hls h => obtain rfl := utf8_unique hs hb; exact .stop hls h
            | invalid h => exact absurd hs (h s)
      · rw [file_invalid hn]
        refine ⟨fun h => ?_, fun h => ?_⟩
        · cases h; exact .stop (.invalid hn)
        · cases h with
          | file h t =>
            cases h with
            | text hb _ _ => exact absurd hb (hn _)
          | stop h =>
            cases h with
            | text hb _ _ => exact absurd hb (hn _)
            | invalid _ => exact .undecodable

/-- C89: what `read_folder` does with files of any bytes. -/
theorem C89_read_folder (ds : List Disk) {legs : Legs} (hl : Grown legs) (res : Except Exc Unit) (out : List Event) :
    ((readFolderAt (some ds) legs).res = res ∧ (readFolderAt (some ds) legs).out = out) ↔ DiskDoes ds res out := by
  rw [← diskDoes_iff]
  exact C86_read_folder (ds.map Disk.file) hl res out

/-- C89: one byte above 127 between ASCII bytes (an accented letter in Latin-1), anywhere in the file, and nothing of
    the whole file is shown. -/
theorem C89_latin1 (x y : List ℕ) {a : ℕ} (ha : 128 ≤ a) (hx : ∀ c ∈ x, c < 128) (hy : ∀ c ∈ y, c < 128)
    (output : Bool) (legs : Legs) (filters : Filters) :
    readFileAt (.bytes (x ++ a :: y)) output legs = ⟨.error .valueError, [], legs⟩ ∧
      searchAt (.bytes (x ++ a :: y)) filters = (.error .valueError, []) := by
  have hn : NotUtf8 (x ++ a :: y) := fun s hs =>
    utf8_alone hs rfl ha (fun p hp => hx p (List.mem_of_getLast? hp)) (fun q hq => hy q (List.mem_of_mem_head? hq))
  unfold readFileAt searchAt
  rw [file_invalid hn]
  exact ⟨rfl, rfl⟩

/-- C89: nor if the file ends within a character. -/
theorem C89_cut {s : Str} {a p q : List ℕ} {c : ℕ} (hs : Utf8 s a) (hc : Utf8Char c (p ++ q)) (hp : p ≠ [])
    (hq : q ≠ []) (output : Bool) (legs : Legs) (filters : Filters) :
    readFileAt (.bytes (a ++ p)) output legs = ⟨.error .valueError, [], legs⟩ ∧
      searchAt (.bytes (a ++ p)) filters = (.error .valueError, []) := by
  have hn : NotUtf8 (a ++ p) := by
    intro t ht
    obtain ⟨u, -, hu⟩ := utf8_prefix hs ht
    cases hu with
    | nil => exact hp rfl
    | @cons d u bs r hd _ =>
      have := (utf8Char_prefix (p := []) (q := r ++ q) hc hd (by simp)).2.2
      have : q = [] := by
        have := congrArg List.length this
        simp at this
        exact List.eq_nil_of_length_eq_zero (by omega)
      exact hq this
  unfold readFileAt searchAt
  rw [file_invalid hn]
  exact ⟨rfl, rfl⟩

/-- C89: a file of ASCII bytes is the text of these characters. -/
theorem C89_ascii {b : List ℕ} (h : ∀ c ∈ b, c < 128) (output : Bool) (legs : Legs) (filters : Filters) :
    readFileAt (.bytes b) output legs = readFile (.text b) output legs ∧
      searchAt (.bytes b) filters = search (.text b) filters := by
  unfold readFileAt searchAt
  rw [file_text (utf8_ascii h)]
  exact ⟨rfl, rfl⟩

/-- C89: all that is printed of a file can be written in UTF-8, whatever the bytes. -/
theorem C89_printable (b : List ℕ) (output : Bool) {legs : Legs} (hl : Grown legs) {c : ℕ}
    (h : Seen (readFileAt (.bytes b) output legs).out c) : ∃ bs, Utf8Char c bs := by
  unfold readFileAt at h
  rcases utf8_or b with ⟨s, hs⟩ | hn
  · rw [file_text hs] at h
    obtain ⟨ls, hls⟩ := lines_exist s
    rcases C88_read_file hls output hl h with h | h
    · exact ⟨_, .one (by unfold Plain at h; omega)⟩
    · exact utf8_scalar hs c h
  · rw [file_invalid hn] at h
    obtain ⟨e, he, _⟩ := h
    cases he

/-- a line that begins with U+FEFF is no record -/
theorem bom_notRecord (l : Str) : ¬ WellShaped (0xFEFF :: l) := by
  rintro ⟨t, ⟨pre, post, h, hpre, -⟩, ht⟩
  cases pre with
  | cons z pre =>
    simp only [List.cons_append, List.cons.injEq] at h
    have := hpre z (by simp)
    rw [← h.1] at this
    revert this; decide
  | nil =>
    cases t with
    | nil => have := ht.length; simp at this
    | cons z t =>
      simp only [List.nil_append, List.cons_append, List.cons.injEq] at h
      have := ht.first
      rw [← h.1] at this
      simp at this

omit [PyUnicode] in
theorem lines_bom {s l : Str} {ls : List Str} (h : Lines s (l :: ls)) :
    Lines (0xFEFF :: s) ((0xFEFF :: l) :: ls) := by
  have hn : ∀ {l : Str}, NoEOL l → NoEOL (0xFEFF :: l) := by
    intro l h c hc
    rcases List.mem_cons.1 hc with rfl | hc
    · decide
    · exact h c hc
  cases h with
  | last h hne => exact .last (hn h) (by simp)
  | lf h t => exact .lf (l := 0xFEFF :: _) (hn h) t
  | crlf h t => exact .crlf (l := 0xFEFF :: _) (hn h) t
  | cr h t hs => exact .cr (l := 0xFEFF :: _) (hn h) t hs

/-- C90: of a file that begins with a byte-order mark the first line is passed over without a word, whatever it is. -/
theorem C90_first_line {b : List ℕ} {s l : Str} {ls : List Str} (hb : Utf8 s b) (hs : Lines s (l :: ls)) (output : Bool)
    {legs : Legs} (hl : Grown legs) (filters : Filters) :
    FileDoes output ls (readFileAt (.bytes (byteOrderMark ++ b)) output legs).res
        (readFileAt (.bytes (byteOrderMark ++ b)) output legs).out ∧
      SearchRun filters 0 ls (searchAt (.bytes (byteOrderMark ++ b)) filters).1
        (searchAt (.bytes (byteOrderMark ++ b)) filters).2 := by
  have hu : Utf8 (0xFEFF :: s) (byteOrderMark ++ b) := .cons (.three (by decide) (by decide) (by decide)) hb
  have hf : FateOf [] (0xFEFF :: l) .notRecord := .notRecord (bom_notRecord l)
  unfold readFileAt searchAt
  rw [file_text hu]
  have h1 := fileDoes_lines ls output hl
  have h2 := searchRun_lines filters 0 ls
  obtain ⟨e1, e2⟩ := (C86_read_file (lines_bom hs) output hl _ _).2 (.line (.other hf (by simp [Fate.returns])) h1)
  have e3 := (C80_search (lines_bom hs) filters _ _).2 (.skip hf rfl h2)
  rw [e1, e2, e3]
  exact ⟨h1, h2⟩

/-- C90, as far as it holds: if the first line is no record anyway (a header), a byte-order mark changes nothing.
    Missing: files that begin with a record, of which it is false (`C90_refuted`). -/
theorem C90_header_partial {b : List ℕ} {s l : Str} {ls : List Str} (hb : Utf8 s b) (hs : Lines s (l :: ls))
    (hn : ¬ WellShaped l) (output : Bool) {legs : Legs} (hl : Grown legs) (filters : Filters) :
    (readFileAt (.bytes (byteOrderMark ++ b)) output legs).res = (readFileAt (.bytes b) output legs).res ∧
      (readFileAt (.bytes (byteOrderMark ++ b)) output legs).out = (readFileAt (.bytes b) output legs).out ∧
      searchAt (.bytes (byteOrderMark ++ b)) filters = searchAt (.bytes b) filters := by
  obtain ⟨h1, h2⟩ := C90_first_line hb hs output hl filters
  have hf : FateOf [] l .notRecord := .notRecord hn
  have e1 := (C89_read_file b output hl _ _).2 (.text hb hs (.line (.other hf (by simp [Fate.returns])) h1))
  have e2 := (C89_search b filters _ _).2 (.text hb hs (.skip hf rfl h2))
  exact ⟨e1.1.symm, e1.2.symm, e2.symm⟩

end

/-! ## Examples -/

section
attribute [local instance] Py.Tables.cpython311

/-- C90 is false of files that begin with a record: with a byte-order mark in front, the only record of the file is
    not shown and not found, and nothing is said. -/
theorem C90_refuted :
    (readFileAt (.bytes Sample.airport) true legTypeDesc).out.length = 1 ∧
    (readFileAt (.bytes (byteOrderMark ++ Sample.airport)) true legTypeDesc).res = .ok () ∧
    (readFileAt (.bytes (byteOrderMark ++ Sample.airport)) true legTypeDesc).out = [] ∧
    searchAt (.bytes Sample.airport) (.str []) =
      (.ok (), [.line Sample.airport, .summary 1 (.str []) true]) ∧
    searchAt (.bytes (byteOrderMark ++ Sample.airport)) (.str []) = (.ok (), [.summary 0 (.str []) false]) := by
  refine ⟨?_, ?_, ?_, ?_, ?_⟩ <;> decide +kernel

/-- a text with characters of one to four bytes -/
example : Utf8 [65, 233, 8364, 128512] [65, 195, 169, 226, 130, 172, 240, 159, 152, 128] :=
  utf8_iff.1 (by decide +kernel)

/-- overlong forms, surrogates, and characters beyond U+10FFFF are no UTF-8 -/
example : utf8Decode [192, 175] = none ∧ utf8Decode [224, 159, 191] = none ∧ utf8Decode [237, 160, 128] = none ∧
    utf8Decode [240, 143, 191, 191] = none ∧ utf8Decode [244, 144, 128, 128] = none := by decide +kernel

/-- a file of two airports, the second with É in Latin-1: the first is not shown either -/
example : (readFileAt (.bytes (Sample.airport ++ 10 :: Sample.airport.set 93 201)) true legTypeDesc).out = [] := by
  have h : Sample.airport ++ 10 :: Sample.airport.set 93 201 =
      (Sample.airport ++ 10 :: Sample.airport.take 93) ++ 201 :: Sample.airport.drop 94 := by decide +kernel
  rw [h, (C89_latin1 _ _ (by decide) (by decide +kernel) (by decide +kernel) true legTypeDesc (.str [])).1]

/-- in UTF-8 both are -/
example : (readFileAt (.bytes (Sample.airport ++ 10 :: (Sample.airport.take 93 ++ [195, 137] ++
    Sample.airport.drop 94))) true legTypeDesc).out.length = 2 := by decide +kernel

/-- a file that ends within É -/
example : (readFileAt (.bytes (Sample.airport ++ 10 :: Sample.airport.take 93 ++ [195])) true legTypeDesc).out = [] :=
  congrArg CallOut.out (C89_cut (s := Sample.airport ++ 10 :: Sample.airport.take 93) (p := [195]) (q := [137])
    (c := 201) (utf8_ascii (by decide +kernel)) (.two (by decide) (by decide)) (by simp) (by simp)
    true legTypeDesc (.str [])).1

/-- a folder with a record and a subfolder -/
example : (readFolderAt (some [.bytes Sample.airport, .unopenable]) legTypeDesc).res = .error .osError ∧
    (readFolderAt (some [.bytes Sample.airport, .unopenable]) legTypeDesc).out.length = 1 := by
  constructor <;> decide +kernel

/-- a header in front of a record -/
example : ¬ WellShaped (py!"HDR01") ∧ Lines (py!"HDR01" ++ 10 :: Sample.airport) [py!"HDR01", Sample.airport] := by
  refine ⟨fun ⟨t, ⟨p, q, h, _, _⟩, ht⟩ => ?_, .lf (by decide) (.last (by decide +kernel) (by decide))⟩
  have h1 := congrArg List.length h
  have h2 := ht.length
  simp only [List.length_append] at h1
  have h3 : (py!"HDR01").length = 5 := rfl
  omega

end

end Arinc
