import Verif.Lemmas.Size
import Verif.Model.Stdout
import Verif.Props.Repr
/-!
# Every decoded value has a text
-/
namespace Arinc
open Py Spec

/-- the value, if there is one, can be shown -/
def HasText (r : Except Exc PyVal) : Prop := ∀ x, r = .ok x → ∃ s, x.text = some s

theorem hastext_error {e : Exc} : HasText (.error e) := fun x h => by cases h
theorem hastext_none : HasText (.ok .none) := fun x h => by cases h; exact ⟨_, rfl⟩
theorem hastext_ret {s : Str} : HasText (ret s) := fun x h => by cases h; exact ⟨_, rfl⟩
theorem hastext_str {s : Str} : HasText (.ok (.str s)) := fun x h => by cases h; exact ⟨_, rfl⟩
theorem hastext_float {y : Dbl} : HasText (.ok (.float (y.divNat 10))) := fun x h => by
  cases h
  exact text_exists fun x e => by cases e; exact divNat_encoded (by norm_num)
theorem hastext_bind {α : Type} {m : Except Exc α} {k : α → Except Exc PyVal} (h : ∀ a, HasText (k a)) : HasText (m >>= k) := by
  cases m with
  | error e => exact hastext_error
  | ok a => exact h a

local macro "hastext" : tactic => `(tactic| repeat' first
  | exact hastext_error
  | exact hastext_none
  | exact hastext_float
  | exact hastext_ret
  | exact hastext_str
  | split
  | refine hastext_bind fun x => ?_)

theorem decoded_text [PyUnicode] (fn : DecFn) (v : Str) (rec : RecInfo) (legs : Legs) : HasText (runDec fn v rec legs).res := by
  cases fn
  all_goals simp only [runDec, quiet, noisy]
  all_goals try simp only [field_002, field_003, field_004, field_007, field_008, field_009, field_010, field_012, field_016,
    field_017, field_020, field_021, field_022, field_023, field_024, field_025, field_026, field_027, field_029, field_030,
    field_032, field_034, field_039, field_042, field_043, field_045, field_048, field_049, field_050, field_053, field_054,
    field_062, field_065, field_072, field_073, field_082, field_086, field_091, field_092, field_101, field_102, field_103,
    field_104, field_106, field_108, field_112, field_113, field_117, field_118, field_123, field_127, field_135, field_147,
    field_161, field_165, field_177, field_178, field_179, field_181, field_182, field_184, field_196, field_198,
    field_199, field_209, field_240, field_269, field_270, feet, dictCase, unsupported]
  all_goals hastext

theorem rows_shown [PyUnicode] (rec : RecInfo) (fs : List Field) (legs : Legs) (rows : List Row) (h : (decodeRows rec fs legs).res = .ok rows) :
    ∃ cells, rows.mapM Row.cells = some cells := by
  induction fs generalizing legs rows with
  | nil => cases h; exact ⟨[], rfl⟩
  | cons f fs ih =>
    simp only [decodeRows] at h
    split at h
    · cases h
    · next v hv =>
      cases hr : (decodeRows rec fs (runDec f.dec f.value rec legs).legs).res with
      | error e => simp only [hr] at h; cases h
      | ok rs =>
        simp only [hr] at h
        cases h
        obtain ⟨cells, hc⟩ := ih _ _ hr
        obtain ⟨s, hs⟩ := decoded_text f.dec f.value rec legs v hv
        exact ⟨[f.name, py!"'" ++ f.value ++ py!"'", s] :: cells, by simp [hc, Row.cells, hs]⟩

end Arinc
