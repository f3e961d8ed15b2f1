import Verif.Oracle.SoundBasic
import Verif.Oracle.Editor
import Verif.Props.Editor
import Verif.Props.HardLinks
/-! # The executable form of C79 is what C79 says -/
namespace Scribe.Oracle
open Spec Props

variable (S : Segmenter) (A : Alloc) (W : FileTree) (hW : NoHardLinks W)
include hW

theorem s_C79_on_disk (s : Syntaxes Nat) (root : Path) (disk : Disk) (as : List (Deed Nat)) : o_C79_on_disk S A W s root disk as = true := by
  simp only [o_C79_on_disk, someImp_iff, imp_iff, okAnd_iff, List.all_eq_true]
  intro w0 h0 ha
  obtain ⟨e, h1, h2⟩ := C79_unmodified_is_on_disk S A W _ root s w0 disk h0 as ha hW
  refine ⟨e, h1, fun b hb => ?_⟩
  unfold onDiskB
  by_cases hm : b.buf.modified = false
  · by_cases hq : Quiet b.buf
    · obtain ⟨p, n, t, k1, k2, k3, k4⟩ := h2 b hb hm hq
      simp [k1, k2, k3, k4]
    · simp [hq]
  · simp [hm]

theorem s_C79_one_buffer (s : Syntaxes Nat) (root : Path) (disk : Disk) (as : List (Deed Nat)) : o_C79_one_buffer S A W s root disk as = true := by
  simp only [o_C79_one_buffer, someImp_iff, imp_iff, okImp_iff, List.all_eq_true, decide_eq_true_eq]
  rintro w0 h0 ha e he ⟨x, i⟩ hx ⟨y, j⟩ hy p hp q hq n hn hn'
  exact C79_one_buffer_per_file S A W _ root s w0 disk h0 as ha hW e he i j x y p q n (List.mem_zipIdx_iff_getElem?.mp hx)
    (List.mem_zipIdx_iff_getElem?.mp hy) hp hq hn hn'

theorem s_C79_reopen (s : Syntaxes Nat) (root : Path) (disk : Disk) (as : List (Deed Nat)) (k : Nat) : o_C79_reopen S A W s root disk as k = true := by
  simp only [o_C79_reopen, someImp_iff, imp_iff, okImp_iff, okAnd_iff, someAnd_iff, Bool.and_eq_true, decide_eq_true_eq]
  intro w0 h0 ha e he b hb hm hq
  obtain ⟨p, e', b', h1, h2, h3, h4, h5, h6⟩ := C79_reopen S A W _ root s w0 disk h0 as ha hW e he b hb hm hq k
  exact ⟨p, h1, e', h2, b', h3, ⟨h4, h5⟩, h6⟩

theorem s_C79_failed_save (s : Syntaxes Nat) (root : Path) (disk : Disk) (as : List (Deed Nat)) : o_C79_failed_save S A W s root disk as = true := by
  simp only [o_C79_failed_save, someImp_iff, imp_iff, okImp_iff, okAnd_iff, someAnd_iff, Bool.and_eq_true, decide_eq_true_eq]
  intro w0 h0 ha e he b hb hm hq t ht hne hp
  obtain ⟨e', p, n, h1, h2, h3, h4, h5, _, h7⟩ := C79_failed_save S A W _ root s w0 disk h0 as ha hW e he b hb hm hq t ht hne hp
  exact ⟨e', h1, p, h2, n, h3, ⟨h4, h5⟩, h7⟩

omit hW in
theorem s_C79_hard_links (s : Syntaxes Nat) (root : Path) (disk : Disk) (p q : Path) (x : Text) (k k' : Nat) : o_C79_hard_links S A W s root disk p q x k k' = true := by
  simp only [o_C79_hard_links, someImp_iff, imp_iff, okAnd_iff]
  intro w0 h0 n hp hq hp' hq' hne hq0 t ht
  obtain ⟨bs, hd, hb⟩ := Option.bind_eq_some_iff.mp ht
  rw [strict_eq_some.mp hb] at hd
  obtain ⟨e, b, b', h1, h2, h3, h4, h5, h6, h7, h8, h9⟩ := C79_hard_links S A W _ root s w0 disk h0 p q n t x k k' hp hq hp' hq' hne hq0 hd
  exact ⟨e, h1, by rw [h2]; simp [h3, h4, h5, h6, h7, h8, h9]⟩

end Scribe.Oracle
