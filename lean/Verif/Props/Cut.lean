import Verif.Lemmas.Cut
import Verif.Props.Bytes
/-!
# C96: a file that is cut short

A download that broke off, a disk that was full, a file another program is still writing: only a first part of the file
is there. `p` (or `b'`, in bytes) is that part, and it may end anywhere: between lines, within a line, between CR and LF,
within a character of several bytes.
-/
namespace Arinc
open Py Spec

section
variable [PyUnicode]

omit [PyUnicode] in
/-- C96: The lines of the part are the first `n` lines of the file, and perhaps the beginning of the next. -/
theorem C96_lines {s p : Str} {ls : List Str} (h : Lines s ls) (hp : p <+: s) :
    ∃ n lp, Lines p lp ∧ CutLines ls n lp := lines_prefix h hp

/-- C96: The beginning of a line is no record and ignored without a message; or it is read as the whole line is, which
    has only whitespace more; or the line is longer than a record. -/
theorem C96_torn {l q : Str} (hq : q <+: l) (r : Record) :
    ((r.read q).res = .ok false ∧ (r.read q).obj = r ∧ (r.read q).out = []) ∨
    r.read q = r.read l ∨ 132 < (strip l).length := by
  by_cases hlen : (strip l).length ≤ 132
  · by_cases hw : WellShaped q
    · obtain ⟨ws, hs, rfl⟩ := torn_space hq hw hlen
      exact .inr (.inl (read_append_space q ws hs r).symm)
    · left
      have hv : validate q = false := by
        cases h : validate q with
        | false => rfl
        | true => exact absurd (validate_iff.1 h) hw
      simp [Record.read, hv]
  · exact .inr (.inr (by omega))

/-- C96 (partial): If no line is longer than a record, then `read_file` and `search` do with the part exactly what they
    do with some first lines of the file: with all lines the part has, the last of which may be missing. The claim for
    all files is false: `C96_refuted`. -/
theorem C96_first_lines_partial {s p : Str} {ls : List Str} (h : Lines s ls) (hp : p <+: s) (hlong : NoneLonger ls) :
    ∃ m, (∀ lp, Lines p lp → lp.length ≤ m + 1 ∧ m ≤ lp.length) ∧ m ≤ ls.length ∧
      ∀ s', Lines s' (ls.take m) →
        (∀ output legs, readFile (.text p) output legs = readFile (.text s') output legs) ∧
        ∀ filters, search (.text p) filters = search (.text s') filters := by
  obtain ⟨n, lp, h1, h2⟩ := lines_prefix h hp
  obtain ⟨m, h3, h4, h5, h6, h7⟩ := cut_same h2 hlong
  refine ⟨m, fun lp' h' => by rw [lines_unique h' h1]; exact ⟨h3, h4⟩, h5, fun s' hs' => ⟨fun output legs => ?_,
    fun filters => ?_⟩⟩
  · rw [readFile_lines h1, readFile_lines hs', h6]
  · rw [search_lines h1, search_lines hs', h7]

/-- C96 (partial): What `read_file` prints for a part of the file, in bytes, is the first part of what it prints for the
    file. It ends normally, or as it does with the whole file, or the part ends within a character: then nothing is
    printed and `UnicodeDecodeError` raised. -/
theorem C96_output_partial {s : Str} {ls : List Str} {b b' : List ℕ} (hb : Utf8 s b) (hs : Lines s ls) (hp : b' <+: b)
    (hlong : NoneLonger ls) (output : Bool) (legs : Legs) :
    (readFileAt (.bytes b') output legs).out <+: (readFileAt (.bytes b) output legs).out ∧
    ((readFileAt (.bytes b') output legs).res = .ok () ∨
     (readFileAt (.bytes b') output legs).res = (readFileAt (.bytes b) output legs).res ∨
     (NotUtf8 b' ∧ readFileAt (.bytes b') output legs = ⟨.error .valueError, [], legs⟩)) := by
  unfold readFileAt
  rcases utf8_or b' with ⟨p, hp'⟩ | hn
  · obtain ⟨t, rfl⟩ := hp
    obtain ⟨u, rfl, -⟩ := utf8_prefix hp' hb
    obtain ⟨n, lp, h1, h2⟩ := lines_prefix hs (List.prefix_append p u)
    obtain ⟨m, -, -, -, h6, -⟩ := cut_same h2 hlong
    rw [file_text hp', file_text hb, readFile_lines h1, readFile_lines hs, h6]
    obtain ⟨g1, g2⟩ := parseLines_take output ls m legs
    exact ⟨g1, g2.imp_right .inl⟩
  · rw [file_invalid hn]
    exact ⟨by simp [readFile, FileObj.readlines], .inr (.inr ⟨hn, rfl⟩)⟩

omit [PyUnicode] in
/-- C96: A part that contains only ASCII is never refused. -/
theorem C96_ascii {b : List ℕ} (h : ∀ c ∈ b, c < 128) {b' : List ℕ} (hp : b' <+: b) : ¬ NotUtf8 b' :=
  fun hn => hn b' (utf8_ascii fun c hc => h c (hp.subset hc))

end

section
attribute [local instance] Py.Tables.cpython311

/-- C96 is false of files with longer lines: a line of 133 columns is ignored, but if the file is cut after 132 of them,
    a record is shown that is not in the file. -/
theorem C96_refuted : ∃ b b' : List ℕ, b' <+: b ∧ (∀ c ∈ b, c < 128) ∧
    (readFileAt (.bytes b) true legTypeDesc).out = [] ∧ (readFileAt (.bytes b') true legTypeDesc).out.length = 1 ∧
    searchAt (.bytes b) (.str []) = (.ok (), [.summary 0 (.str []) false]) ∧
    searchAt (.bytes b') (.str []) = (.ok (), [.line b', .summary 1 (.str []) true]) := by
  have hb : ∀ c ∈ Sample.airport ++ [53], c < 128 := by decide +kernel
  have hb' : ∀ c ∈ Sample.airport, c < 128 := fun c hc => hb c (by simp [hc])
  refine ⟨Sample.airport ++ [53], Sample.airport, ⟨[53], rfl⟩, hb, ?_⟩
  simp only [readFileAt, searchAt, file_text (utf8_ascii hb), file_text (utf8_ascii hb')]
  exact ⟨by decide +kernel, by decide +kernel, by decide +kernel, by decide +kernel⟩

/-- a file of two records that is cut within the second: the hypotheses are met, and the first is shown -/
example : NoneLonger [Sample.airport, Sample.vhf] ∧
    Lines (Sample.airport ++ 10 :: (Sample.vhf ++ [10])) [Sample.airport, Sample.vhf] ∧
    Sample.airport ++ 10 :: Sample.vhf.take 100 <+: Sample.airport ++ 10 :: (Sample.vhf ++ [10]) ∧
    (readFile (.text (Sample.airport ++ 10 :: Sample.vhf.take 100)) true legTypeDesc).out.length = 1 := by
  refine ⟨by decide +kernel, ?_, ?_, by decide +kernel⟩
  · exact .lf (by decide +kernel) (.lf (s := []) (by decide +kernel) .nil)
  · decide +kernel

/-- it is cut just before the last line feed: both are shown -/
example : (readFile (.text (Sample.airport ++ 10 :: Sample.vhf)) true legTypeDesc).out.length = 2 := by decide +kernel

/-- a character is cut: nothing is shown -/
example : NotUtf8 (Sample.airport ++ [10, 195]) ∧ Utf8 (Sample.airport ++ [10, 233]) (Sample.airport ++ [10, 195, 169]) := by
  have h : Utf8 (Sample.airport ++ [10]) (Sample.airport ++ [10]) := utf8_ascii (by decide +kernel)
  refine ⟨fun s hs => ?_, ?_⟩
  · have he : Sample.airport ++ [10, 195] = (Sample.airport ++ [10]) ++ 195 :: [] := by simp
    exact utf8_alone hs he (by decide) (fun p hp => by simp at hp; omega) (fun q hq => by simp at hq)
  · have := utf8_append h (.cons (.two (c := 233) (by decide) (by decide)) .nil)
    simpa using this

end
end Arinc
