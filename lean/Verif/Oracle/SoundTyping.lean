import Verif.Oracle.Typing
import Verif.Oracle.SoundFile
import Verif.Oracle.SoundBuffer
import Verif.Props.Typing
/-! # The executable forms of C85 follow from the theorems -/
namespace Scribe.Oracle
open Spec Props Buf

variable {A : Alloc} {b : Buf} {d : Doc} (T : Uax29.Table)

theorem s_C13_edits {S : Segmenter} (h : Reached S A b d) (cs : List Cmd) : o_C13_undo_edits S A b d cs = true := by
  simp only [o_C13_undo_edits, imp_iff, okAnd_iff, Bool.and_eq_true, decide_eq_true_eq]
  intro hg hc hcs
  obtain ⟨b1, b2, b3, e1, e2, e3, e4, e5, e6, e7⟩ := C13_undo_edits S A b d cs h hg hc hcs
  exact ⟨b1, e1, e2, b2, e3, ⟨e4, e5⟩, b3, e6, e7⟩

theorem around_sound {b : Buf} {f : List Text → List Text → Bool}
    (h : ∀ x y, (∀ c ∈ x, Uax29.Ordinary T.cls c) → (∀ c ∈ y, Uax29.Ordinary T.cls c) → (Uax29.segmenter T).segs x.flatten = x →
      (Uax29.segmenter T).segs y.flatten = y → b.data.toStr = .ok (x.flatten ++ y.flatten) → b.cursor.position = endPos x → f x y = true) :
    around (Uax29.segmenter T) T b f = true := by
  simp only [around, okImp_iff, imp_iff, overB_iff]
  intro t ht ho
  split
  · rename_i x y hl
    obtain ⟨h1, h2⟩ := locate_eq_some.mp hl
    have hx : ∀ c ∈ x, Uax29.Ordinary T.cls c := fun c hc => ho c (by rw [h1]; simp [hc])
    have hy : ∀ c ∈ y, Uax29.Ordinary T.cls c := fun c hc => ho c (by rw [h1]; simp [hc])
    refine h x y hx hy ((Uax29.ordinary_closed T).apart x hx) ((Uax29.ordinary_closed T).apart y hy) ?_ h2.symm
    rw [ht, ← List.flatten_append, ← h1, (Uax29.segmenter T).join]
  · rfl

theorem s_C85_typing (h : Reached (Uax29.segmenter T) A b d) (s : Text) : o_C85_typing (Uax29.segmenter T) A T b s = true := by
  refine around_sound T fun x y hx hy ex ey ht hc => ?_
  simp only [imp_iff, okAnd_iff, Bool.and_eq_true, decide_eq_true_eq, overB_iff]
  intro hs
  obtain ⟨⟨b1, e1, e2, e3⟩, b2, e4, e5⟩ := C85_typing (Uax29.ordinary_closed T) (fun _ => Uax29.ordinary_noCr T) A b d x.flatten y.flatten s h
    (by unfold Over; rwa [ex]) (by unfold Over; rwa [ey]) hs ht (by rw [ex]; exact hc)
  exact ⟨⟨b1, e1, e2, e3⟩, b2, e4, e5⟩

theorem s_C85_undo (h : Reached (Uax29.segmenter T) A b d) (s : Text) : o_C85_undo_typing (Uax29.segmenter T) A T b s = true := by
  refine around_sound T fun x y hx hy ex ey ht hc => ?_
  simp only [imp_iff, okAnd_iff, Bool.and_eq_true, decide_eq_true_eq, overB_iff]
  intro hs hg
  obtain ⟨b1, b2, b3, e1, e2, e3, e4, e5, e6⟩ := C85_undo_typing (Uax29.ordinary_closed T) (fun _ => Uax29.ordinary_noCr T) A b d x.flatten y.flatten s h hg
    (by unfold Over; rwa [ex]) (by unfold Over; rwa [ey]) hs ht (by rw [ex]; exact hc)
  exact ⟨b1, e1, e2, b2, e3, e4, b3, e5, e6⟩

theorem s_C85_erasing (h : Reached (Uax29.segmenter T) A b d) (n : Nat) : o_C85_erasing (Uax29.segmenter T) A T b n = true := by
  refine around_sound T fun x y hx hy ex ey ht hc => ?_
  simp only [okAnd_iff, Bool.and_eq_true, decide_eq_true_eq]
  have hx1 : ∀ c ∈ x.take n, Uax29.Ordinary T.cls c := fun c hc => hx c (List.mem_of_mem_take hc)
  have hx2 : ∀ c ∈ x.drop n, Uax29.Ordinary T.cls c := fun c hc => hx c (List.mem_of_mem_drop hc)
  have e1 := (Uax29.ordinary_closed T).apart _ hx1
  have e2 := (Uax29.ordinary_closed T).apart _ hx2
  have ej : (x.take n).flatten ++ (x.drop n).flatten = x.flatten := by rw [← List.flatten_append, List.take_append_drop]
  have k := C85_erasing (Uax29.ordinary_closed T) (fun _ => Uax29.ordinary_noCr T) A b d (x.take n).flatten (x.drop n).flatten y.flatten h
    (by unfold Over; rwa [e1]) (by unfold Over; rwa [e2]) (by unfold Over; rwa [ey]) (by rw [ej]; exact ht) (by rw [ej, ex]; exact hc)
  rw [e1, e2] at k
  exact k

theorem s_C85_deleting (h : Reached (Uax29.segmenter T) A b d) (n : Nat) : o_C85_deleting (Uax29.segmenter T) A T b n = true := by
  refine around_sound T fun x y hx hy ex ey ht hc => ?_
  simp only [okAnd_iff, Bool.and_eq_true, decide_eq_true_eq]
  have k := C85_deleting (Uax29.ordinary_closed T) A b d x.flatten y.flatten n h
    (by unfold Over; rwa [ex]) (by unfold Over; rwa [ey]) ht (by rw [ex]; exact hc)
  rw [ey] at k
  exact k

end Scribe.Oracle
