import Verif.Oracle.Meddle
import Verif.Oracle.SoundBatch
import Verif.Props.Meddle
/-! # The executable form of C66 follows from the theorem -/
namespace Scribe.Oracle
open Spec Shared

variable {A : Alloc} {T : Uax29.Table}

theorem s_C66_not_undone (k : Nat) (t s r : Text) : o_C66_not_undone (Uax29.segmenter T) A T k t s r = true := by
  simp only [o_C66_not_undone, imp_iff, okAnd_iff, overB_iff, Bool.and_eq_true, Bool.or_eq_true, decide_eq_true_eq]
  rintro ⟨h1, h2, h3, h4, h5⟩
  obtain ⟨b, w, e1, e2, e3⟩ := C66_not_undone (Uax29.segmenter T) _ (Uax29.ordinary_closed T) A k t s r h1 h2 h3 h4 h5
  refine ⟨(b, w), e1, _, e2, rfl, ?_⟩
  cases r with
  | nil => exact Or.inl rfl
  | cons c r => exact Or.inr (e3 (by simp))

end Scribe.Oracle
