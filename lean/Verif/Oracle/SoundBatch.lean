import Verif.Oracle.Batch
import Verif.Oracle.SoundFile
import Verif.Oracle.SoundBuffer
import Verif.Props.Batch
/-! # The executable forms of C88 and C89 follow from the theorems -/
namespace Scribe.Oracle
open Spec Props Buf

variable {A : Alloc} {b : Buf} {d : Doc} (T : Uax29.Table)

theorem batchB_sound {ps : List Piece} {rest : Text} {f : Bool}
    (h : b.data.toStr = .ok (source ps rest) → Pieces (Uax29.segmenter T).segs (Uax29.Ordinary T.cls) ps →
      Over (Uax29.segmenter T).segs (Uax29.Ordinary T.cls) rest → f = true) : batchB (Uax29.segmenter T) T b ps rest f = true := by
  simp only [batchB, imp_iff, List.all_eq_true, Bool.and_eq_true, overB_iff]
  intro h1 h2 h3
  exact h h1 (fun p hp => ⟨(h3 p hp).1.1, (h3 p hp).1.2, (h3 p hp).2⟩) h2

theorem s_C88_backward (h : Reached (Uax29.segmenter T) A b d) (ps rest) : o_C88_backward (Uax29.segmenter T) A T b ps rest = true := by
  refine batchB_sound T fun h1 h2 h3 => ?_
  simp only [okAnd_iff, decide_eq_true_eq]
  exact C88_backward (Uax29.ordinary_closed T) A b d ps rest h h1 h2 h3

theorem s_C88_forward (h : Reached (Uax29.segmenter T) A b d) (ps rest) : o_C88_forward (Uax29.segmenter T) A T b ps rest = true := by
  refine batchB_sound T fun h1 h2 h3 => ?_
  simp only [okAnd_iff, decide_eq_true_eq]
  exact C88_forward (Uax29.ordinary_closed T) A b d ps rest h h1 h2 h3

theorem s_C88_undo (h : Reached (Uax29.segmenter T) A b d) (ps rest) : o_C88_undo (Uax29.segmenter T) A T b ps rest = true := by
  refine batchB_sound T fun h1 h2 h3 => ?_
  simp only [okAnd_iff, decide_eq_true_eq, Bool.and_eq_true, imp_iff]
  intro hg
  obtain ⟨b1, b2, b3, e1, e2, e3, e4, e5, e6, e7⟩ := C88_undo (Uax29.ordinary_closed T) A b d ps rest h hg.1 h1 h2 h3 hg.2
  exact ⟨b1, e1, ⟨e2, e3⟩, b2, e4, e5, b3, e6, e7⟩

theorem s_C89_cut_paste (h : Reached (Uax29.segmenter T) A b d) (i j k : Nat) : o_C89_cut_paste (Uax29.segmenter T) A T b i j k = true := by
  simp only [o_C89_cut_paste, okImp_iff, okAnd_iff, decide_eq_true_eq, Bool.and_eq_true, imp_iff, overB_iff]
  intro t ht ho
  have hP := Uax29.ordinary_closed T
  generalize hcs : (Uax29.segmenter T).segs t = cs at ho
  have hj := (Uax29.segmenter T).join t
  rw [hcs] at hj
  have ov : ∀ {as : List Text}, (∀ c ∈ as, c ∈ cs) → Over (Uax29.segmenter T).segs (Uax29.Ordinary T.cls) as.flatten := fun ha =>
    over_flatten hP fun c hc => ho c (by rw [hcs]; exact ha c hc)
  have hr : ∀ c ∈ cs.take i ++ (cs.drop i).drop j, c ∈ cs := fun c hc => (List.mem_append.mp hc).elim
    (fun h => List.mem_of_mem_take h) (fun h => List.mem_of_mem_drop (List.mem_of_mem_drop h))
  have et : t = (cs.take i).flatten ++ ((cs.drop i).take j).flatten ++ ((cs.drop i).drop j).flatten := by
    rw [← hj, List.append_assoc, ← List.flatten_append, List.take_append_drop, ← List.flatten_append, List.take_append_drop]
  obtain ⟨k1, k2, k3⟩ := C89_cut_paste hP A b d (cs.take i).flatten ((cs.drop i).take j).flatten ((cs.drop i).drop j).flatten
    ((cs.take i ++ (cs.drop i).drop j).take k).flatten ((cs.take i ++ (cs.drop i).drop j).drop k).flatten h (by rw [ht, ← et])
    (ov fun c hc => List.mem_of_mem_take hc) (ov fun c hc => List.mem_of_mem_drop (List.mem_of_mem_take hc))
    (ov fun c hc => List.mem_of_mem_drop (List.mem_of_mem_drop hc)) (ov fun c hc => hr c (List.mem_of_mem_take hc))
    (ov fun c hc => hr c (List.mem_of_mem_drop hc))
    (by rw [← List.flatten_append, ← List.flatten_append, List.take_append_drop])
  refine ⟨⟨k1, k2⟩, fun hg => ?_⟩
  obtain ⟨b1, b2, b3, e1, e2, e3, e4, e5, e6⟩ := k3 hg
  exact ⟨b1, e1, e2, b2, e3, by rw [e4, ← et], b3, e5, e6⟩

end Scribe.Oracle
