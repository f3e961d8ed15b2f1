import Verif.Oracle.FindReplace
import Verif.Oracle.SoundFile
import Verif.Oracle.SoundBuffer
import Verif.Props.FindReplace
import Verif.Props.Elsewhere
/-! # The executable forms of C86 follow from the theorems -/
namespace Scribe.Oracle
open Spec Props Buf

variable {A : Alloc} {b : Buf} {d : Doc} (T : Uax29.Table)

/-- Ordinary clusters of one byte. -/
def OrdByte (c : Text) : Prop := Uax29.Ordinary T.cls c ∧ ∃ x : Char, c = [x] ∧ x.utf8Size = 1

theorem ordByte_closed : Closed (Uax29.segmenter T).segs (OrdByte T) :=
  ⟨fun cs h => (Uax29.ordinary_closed T).apart cs fun c hc => (h c hc).1, fun h => (Uax29.ordinary_closed T).noCrlf h.1⟩

theorem ordByte_one : OneByte (OrdByte T) := fun _ h => h.2

theorem byteB_over {t : Text} (h : byteB (Uax29.segmenter T) T t = true) : Over (Uax29.segmenter T).segs (OrdByte T) t := by
  simp only [byteB, Bool.and_eq_true, decide_eq_true_eq, List.all_eq_true, overB_iff] at h
  obtain ⟨⟨h1, h2⟩, h3⟩ := h
  intro c hc
  refine ⟨h1 c hc, ?_⟩
  rw [h2] at hc
  obtain ⟨x, hx, rfl⟩ := List.mem_map.mp hc
  exact ⟨x, rfl, h3 x hx⟩

theorem s_C86_one (h : Reached (Uax29.segmenter T) A b d) (needle r : Text) : o_C86_replace_one (Uax29.segmenter T) A T b needle r = true := by
  simp only [o_C86_replace_one, findB, okImp_iff, imp_iff, List.all_eq_true]
  intro t ht hb hn ps hs p hp
  obtain ⟨x, y, b', e1, e2, e3, e4⟩ := C86_replace_one (ordByte_closed T) (ordByte_one T) A b d t needle r ps p h ht (byteB_over T hb.1) (byteB_over T hb.2)
    hn.1 hn.2.1 hn.2.2 hs hp
  have hc := over_single (ordByte_one T) (byteB_over T hb.1)
  have s1 : (Uax29.segmenter T).segs t = x.map (fun c => [c]) ++ (needle ++ y).map fun c => [c] := by
    rw [singles (ordByte_closed T) hc, e1]; simp
  have s2 : (Uax29.segmenter T).segs x = x.map fun c => [c] := singles (ordByte_closed T) fun c hm => hc c (by rw [e1]; simp [hm])
  rw [← e2, s2, s1, locate_append]
  simp only [flatten_singletons, Bool.and_eq_true, decide_eq_true_eq, okAnd_iff]
  refine ⟨⟨y, rfl⟩, b', ?_, by rw [e4, List.drop_left]⟩
  rw [← e2, s2] at e3; exact e3

theorem s_C86_all (h : Reached (Uax29.segmenter T) A b d) (needle r : Text) : o_C86_replace_all (Uax29.segmenter T) A T b needle r = true := by
  simp only [o_C86_replace_all, findB, okImp_iff, imp_iff, okAnd_iff, decide_eq_true_eq]
  intro t ht hb hn ps hs
  exact C86_replace_all (ordByte_closed T) (ordByte_one T) A b d t needle r ps h ht (byteB_over T hb.1) (byteB_over T hb.2) hn.1 hn.2.1 hn.2.2 hs

theorem s_C86_undo (h : Reached (Uax29.segmenter T) A b d) (needle r : Text) : o_C86_undo (Uax29.segmenter T) A T b needle r = true := by
  simp only [o_C86_undo, findB, okImp_iff, imp_iff, okAnd_iff, Bool.and_eq_true, decide_eq_true_eq]
  intro t ht hb hn ps hs hg
  obtain ⟨b1, b2, b3, e1, e2, e3, e4, e5, e6, e7⟩ := C86_undo (ordByte_closed T) (ordByte_one T) A b d t needle r ps h hg.1 ht (byteB_over T hb.1)
    (byteB_over T hb.2) hn.1 hn.2.1 hn.2.2 hs hg.2
  exact ⟨b1, e1, ⟨e2, e3⟩, b2, e4, e5, b3, e6, e7⟩

theorem s_C86_elsewhere (k : Nat) (u w needle y r : Text) : o_C86_elsewhere (Uax29.segmenter T) A T k u w needle y r = true := by
  simp only [o_C86_elsewhere, imp_iff, overB_iff, okAnd_iff, List.any_eq_true, Bool.and_eq_true, decide_eq_true_eq, List.mem_range]
  rintro ⟨ou, ow, oy, hr⟩ ⟨hn, hnl, hcr⟩ ⟨hu, hw, hm⟩
  have ht : (Buf.fromContent A k (u ++ w ++ (needle ++ y))).data.toStr = .ok (u ++ w ++ (needle ++ y)) := (GapBuffer.new_rep _ _).toStr.trans (by simp)
  obtain ⟨ps, hs, -⟩ := C30_search (Buf.fromContent A k (u ++ w ++ (needle ++ y))) _ needle ht
  obtain ⟨p, i, h1, h2, h3, h4⟩ := C86_elsewhere (Uax29.ordinary_closed T) A (Buf.fromContent A k (u ++ w ++ (needle ++ y))) (Doc.new (u ++ w ++ (needle ++ y)) true) u w needle y r ps
    (.start (.load k _)) ht hu hw ou ow oy hr hn hnl hcr hs hm
  refine ⟨ps, hs, p, h1, ⟨by rw [h2], by rw [h2]; exact h3⟩, fun he => ?_⟩
  obtain ⟨z, o, v, b', e1, e2, e3, e4, e5⟩ := h4 he.1 he.2
  refine ⟨b', e4, z.length, by rw [e1]; simp; omega, o.length, by rw [e1]; simp; omega, ⟨List.length_pos_iff.mpr e2, ?_⟩, ?_⟩
  · rw [e1]; simp [e3]
  · rw [e5, e1]; simp

end Scribe.Oracle
