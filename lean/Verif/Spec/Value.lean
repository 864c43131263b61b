import Verif.Model.Decoder
/-!
# Specification: numbers as text

Independent of the model of `int`, `float` and `format`: a digit string denotes the sum of its digits
times powers of ten.
-/
namespace Spec
open Py Arinc

/-- positional value of a digit string (most significant digit first) -/
def digitSum : Str → Nat
  | [] => 0
  | c :: s => (c - 48) * 10 ^ s.length + digitSum s

/-- `s` is a numeral (one or more digits 0-9, leading zeros allowed) for `n` -/
def Numeral (s : Str) (n : Nat) : Prop := s ≠ [] ∧ (∀ c ∈ s, 48 ≤ c ∧ c ≤ 57) ∧ digitSum s = n

/-- `s` is the usual decimal numeral for `n`: no leading zeros -/
def Decimal (s : Str) (n : Nat) : Prop := Numeral s n ∧ (s.head? = some 48 → s = [48])

/-- `s` is the decimal number `n / 10^d` written with exactly `d` decimals -/
def Fixed (d : Nat) (s : Str) (n : Nat) : Prop :=
  ∃ ip fp, s = ip ++ [46] ++ fp ∧ Decimal ip (n / 10 ^ d) ∧ Numeral fp (n % 10 ^ d) ∧ fp.length = d

/-- altitude, elevation and position fields shown in feet -/
def feetFields : List DecFn :=
  [.f029, .f030, .f048, .f050, .f053, .f073, .f086, .f092, .f123, .f127, .f147, .f161, .f184, .f209, .f240]

/-- frequency fields: VOR/NDB, localizer, communications -/
def frequencyFields : List DecFn := [.f034, .f045, .f103]

/-- A field with field function `fn` and raw value `v` decodes to the text `s`, whatever the record and
    whatever happened before; nothing is printed and no state changes. -/
def Shows [PyUnicode] (fn : DecFn) (v s : Str) : Prop :=
  ∀ (rec : RecInfo) (legs : Legs), runDec fn v rec legs = ⟨.ok (.str s), [], legs⟩

/-- decoding a field with field function `fn` and raw value `v` raises `ValueError`, whatever the record
    and whatever happened before -/
def Rejects [PyUnicode] (fn : DecFn) (v : Str) : Prop :=
  ∀ (rec : RecInfo) (legs : Legs), runDec fn v rec legs = ⟨.error .valueError, [], legs⟩

end Spec
