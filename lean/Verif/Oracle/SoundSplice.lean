import Verif.Oracle.Splice
import Verif.Oracle.SoundBlock
import Verif.Props.Splice
/-! # The executable forms of C115 follow from the theorems -/
namespace Scribe.Oracle
open Spec Props Buf

variable {A : Alloc} {b : Buf} {d : Doc} (T : Uax29.Table)

theorem s_C115_replace (h : Reached (Uax29.segmenter T) A b d) (i j : Nat) (s : Text) : o_C115_replace (Uax29.segmenter T) A T b i j s = true := by
  simp only [o_C115_replace, okImp_iff, imp_iff, someImp_iff, overB_iff, Bool.and_eq_true, okAnd_iff, decide_eq_true_eq]
  intro t ht ho hs hg hcr hcs hij last hj
  obtain ⟨b1, b2, b3, h1, h2, h3, h4, h5, h6, h7, h8⟩ := C115_replace (Uax29.ordinary_closed T) A b d h hg t ht ho hcr s hs hcs i j hij last hj
  exact ⟨oneStepB_iff.mpr ⟨b1, b2, b3, h1, h2, h4, h5, h6, h7, h8⟩, b1, h1, h3⟩

theorem s_C115_rearrange (hnl : Uax29.Ordinary T.cls ['\n']) (h : Reached (Uax29.segmenter T) A b d) (i j : Nat) (new : List Text) :
    o_C115_rearrange (Uax29.segmenter T) A T b i j new = true := by
  simp only [o_C115_rearrange, okImp_iff, imp_iff, someImp_iff, overB_iff, Bool.and_eq_true, okAnd_iff, decide_eq_true_eq]
  intro t ht ho hg hcr hij hne hm last hj
  obtain ⟨b1, b2, u, h1, h2, h3, h4, h5, -⟩ := C115_rearrange (Uax29.ordinary_closed T) hnl A b d h hg t ht ho hcr new hne hm i j hij last hj
  exact ⟨b1, h1, ⟨u, h2, h3⟩, b2, h4, h5⟩

end Scribe.Oracle
