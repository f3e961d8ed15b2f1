import Verif.Oracle.Hits
import Verif.Oracle.SoundBasic
import Verif.Props.Hits
/-! # The executable forms of C118 are the theorems -/
namespace Scribe.Oracle
open Spec Props Buf

variable {S : Segmenter} {A : Alloc} {b : Buf} {d : Doc}

theorem hits_iff {needle : Text} {check : Position → Text → Text → Bool}
    (h : ∀ t ps p, b.data.toStr = .ok t → '\r' ∉ t → b.search needle = .ok ps → p ∈ ps →
      ∃ x y, (splitNl t)[p.line]? = some (x ++ needle ++ y) ∧ blen x = p.offset ∧ check p x (x ++ needle ++ y) = true) : hits b needle check = true := by
  simp only [hits, okImp_iff, imp_iff, List.all_eq_true, decide_eq_true_eq]
  intro t ht hcr ps hs p hp
  obtain ⟨x, y, h1, h2, h3⟩ := h t ps p ht hcr hs hp
  have e : strSplit (x ++ needle ++ y) p.offset = .ok (x, needle ++ y) := by rw [← h2, List.append_assoc]; exact strSplit_append _ _
  rw [h1]
  simp only [e, h3, Bool.and_true, decide_eq_true_eq]
  exact ⟨y, rfl⟩

theorem s_C118_bounds (h : Reached S A b d) (needle : Text) : o_C118_bounds S b needle = true := by
  refine hits_iff fun t ps p ht hcr hs hp => ?_
  simp only [decide_eq_true_eq]
  exact C118_bounds S A b d h t needle ht hcr ps hs p hp

theorem s_C118_column (h : Reached S A b d) (needle : Text) : o_C118_column S b needle = true := by
  refine hits_iff fun t ps p ht hcr hs hp => ?_
  obtain ⟨x, y, h1, h2, h3⟩ := C118_column S A b d h t needle ht hcr ps hs p hp
  refine ⟨x, y, h1, h2, ?_⟩
  simp only [imp_iff, Bool.and_eq_true, decide_eq_true_eq]
  rintro ⟨k1, k2⟩
  obtain ⟨m1, m2, m3⟩ := h3 ((S.segs (x ++ needle ++ y)).take (S.segs x).length) _ (((S.segs (x ++ needle ++ y)).drop (S.segs x).length).drop (S.segs needle).length)
    (by generalize S.segs (x ++ needle ++ y) = cs; rw [List.append_assoc, List.take_append_drop, List.take_append_drop]) k1 k2
  exact ⟨⟨m1, m2⟩, m3⟩

theorem s_C118_astray (h : Reached S A b d) (needle : Text) (n : Nat) : o_C118_astray S b needle n = true := by
  refine hits_iff fun t ps p ht hcr hs hp => ?_
  simp only [decide_eq_true_eq]
  exact C118_astray S A b d h t needle ht hcr ps hs p hp n

end Scribe.Oracle
