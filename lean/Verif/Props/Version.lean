import Verif.Lemmas.Agree
import Verif.Py.Cpython311
import Verif.Props.Samples
/-!
# C102: the version of Python

Which characters are letters or digits depends on the version of the Unicode database of the interpreter.
-/
namespace Arinc
open Py Spec

/-! ## C102 -/

/-- C102: two interpreters that classify the characters of the texts given to the calls in the same way give
    the same results, print the same, and are left in the same state, whatever the sequence of calls. -/
theorem C102_same {u v : PyUnicode} {ops : List Op} (h : ∀ op ∈ ops, ∀ s ∈ textsOf op, ∀ c ∈ s, SameClass u v c) :
    @World.run u World.init ops = @World.run v World.init ops :=
  agree_run h fun _ => new_over

/-- C102: on ASCII texts every interpreter gives the same results. -/
theorem C102_ascii (u v : PyUnicode) {ops : List Op} (h : ∀ op ∈ ops, ∀ s ∈ textsOf op, Ascii s) :
    @World.run u World.init ops = @World.run v World.init ops :=
  C102_same fun op ho s hs c hc => sameClass_ascii (h op ho s hs c hc)

/-- C102: what an object shows depends only on how the characters of its fields are classified. -/
theorem C102_decode {u v : PyUnicode} {r : Record} (h : ∀ f ∈ r.fields, ∀ c ∈ f.value, SameClass u v c)
    (output : Bool) (legs : Legs) : @Record.decode u r output legs = @Record.decode v r output legs :=
  agree_decode h output legs

/-- C102: `read` asks only about the last nine characters of the record and its continuation number: if two
    interpreters agree on these, then on the result, the object and what is printed. -/
theorem C102_read {u v : PyUnicode} {line : Str} (hn : ∀ c ∈ lastN (strip line) 9, SameClass u v c)
    (hc : ∀ k d i c, registry.lookup k = some d → d.contIdx = some i → (strip line)[i]? = some c → SameClass u v c)
    (r : Record) : @Record.read u r line = @Record.read v r line := by
  have hk : ∀ k, @Record.readDefinition u { { r with raw := strip line } with ident := k } line =
      @Record.readDefinition v { { r with raw := strip line } with ident := k } line := by
    intro k
    unfold Record.readDefinition
    simp only
    split
    · rfl
    · next d hd =>
      unfold Record.readWith
      simp only
      split
      · next i hi =>
        split
        · rfl
        · next c h1 =>
          have ho : Over (SameClass u v) c := by
            unfold index at h1
            split at h1
            · next b hb => cases h1; exact over_cons (hc k d i b hd hi hb) (fun _ h => by cases h)
            · cases h1
          rw [agree_isAlnum ho]
      · rfl
  unfold Record.read validate
  simp only [agree_isNumeric (u := u) (v := v) hn, hk]

/-! ## The condition is needed -/

/-- CPython 3.11 but for U+1C89, a letter since Unicode 16 (CPython 3.14) -/
@[instance_reducible] def later : PyUnicode :=
  { Py.Tables.cpython311 with
    alpha := fun c => Py.Tables.cpython311.alpha c || c == 0x1C89
    alpha_ascii := by
      intro c hc
      have : (c == 0x1C89) = false := by simp only [beq_eq_false_iff_ne]; omega
      rw [this, Bool.or_false]
      exact Py.Tables.cpython311.alpha_ascii c hc
    alpha_not_space := by
      intro c hc
      rw [Bool.or_eq_true, beq_iff_eq] at hc
      rcases hc with hc | rfl
      · exact Py.Tables.cpython311.alpha_not_space c hc
      · decide }

/-- C102: outside of ASCII the version does matter. The VHF navaid with U+1C89 as its continuation number
    and A as its application type is refused by one interpreter and read as a continuation record by another. -/
theorem C102_needed : ∃ line,
    (@parse Py.Tables.cpython311 line true legTypeDesc).res = .ok false ∧
    (@parse later line true legTypeDesc).res = .ok true :=
  ⟨(Sample.vhf.set 21 0x1C89).set 22 65, by decide +kernel, by decide +kernel⟩

/-! ## Non-vacuity -/

section
attribute [local instance] Py.Tables.cpython311

/-- a history of ASCII calls that reads and decodes -/
example : (∀ op ∈ [Op.read 0 Sample.airport, .decode 0 true, .parse Sample.sid true,
      .search (.text Sample.vhf) (.str (py!"VOR"))], ∀ s ∈ textsOf op, Ascii s) ∧
    (World.run World.init [Op.read 0 Sample.airport]).2 = [.read (.ok true) []] ∧
    textsOf (.readFolder (some [.text Sample.vhf, .unopenable])) = [Sample.vhf] := by
  refine ⟨?_, ?_, rfl⟩
  · have : ∀ s ∈ [Sample.airport, Sample.sid, Sample.vhf], s.all (· < 128) = true := by decide +kernel
    intro op ho s hs c hc
    simp only [List.mem_cons, List.not_mem_nil, or_false] at ho
    rcases ho with rfl | rfl | rfl | rfl <;> simp only [textsOf, List.mem_cons, List.not_mem_nil, or_false] at hs
    all_goals
      subst hs
      simpa using List.all_eq_true.1 (this _ (by simp)) c hc
  · decide +kernel

/-- two interpreters that differ agree on the characters of a text outside of ASCII -/
example : ∀ c ∈ ([233, 0x660] : Str), SameClass Py.Tables.cpython311 later c := by
  unfold SameClass; decide +kernel

/-- a line where they differ on a character that `read` does not ask about: the name of the navaid -/
example : (@Record.read later Record.new (Sample.vhf.set 94 0x1C89)).res = .ok true ∧
    ¬ SameClass Py.Tables.cpython311 later 0x1C89 := by
  unfold SameClass; decide +kernel

end
end Arinc
