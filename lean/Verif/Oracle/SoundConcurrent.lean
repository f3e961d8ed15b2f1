import Verif.Oracle.Concurrent
import Verif.Oracle.SoundFile
import Verif.Props.Concurrent
/-! # The executable forms of C96 follow from the theorems -/
namespace Scribe.Oracle
open Spec Props Buf

variable {T : Uax29.Table} {A : Alloc}

theorem fitsB_fits {S : Segmenter} {t : Text} {e : Delta} (h : fitsB S T t e = true) : e.Fits S.segs (Uax29.Ordinary T.cls) t := by
  cases e with
  | put p s =>
    simp only [fitsB, Bool.and_eq_true, overB_iff] at h
    exact h
  | cut p q =>
    simp only [fitsB, Bool.and_eq_true, decide_eq_true_eq] at h
    exact h

theorem fitsAllB_fits {S : Segmenter} (es : List Delta) {t : Text} (h : fitsAllB S T t es = true) : Delta.FitsAll S.segs (Uax29.Ordinary T.cls) t es := by
  induction es generalizing t with
  | nil => trivial
  | cons e es ih =>
    simp only [fitsAllB, Bool.and_eq_true] at h
    exact ⟨fitsB_fits h.1, ih h.2⟩

theorem s_C96_two {b b' : Buf} {d d' : Doc} (h : Reached (Uax29.segmenter T) A b d) (h' : Reached (Uax29.segmenter T) A b' d') (e f : Delta) :
    o_C96_two (Uax29.segmenter T) A T b b' e f = true := by
  simp only [o_C96_two, imp_iff, okImp_iff]
  rintro t ht ⟨ht', hov, he, hf⟩
  obtain ⟨c, c', h1, h2, h3⟩ := C96_two (Uax29.ordinary_closed T) A A b b' d d' t e f h h' ht ht' (overB_iff.mp hov) (fitsB_fits he) (fitsB_fits hf)
  rw [h1, h2]
  exact decide_eq_true h3

theorem s_C96_many {b b' : Buf} {d d' : Doc} (h : Reached (Uax29.segmenter T) A b d) (h' : Reached (Uax29.segmenter T) A b' d') (es fs : List Delta) :
    o_C96_many (Uax29.segmenter T) A T b b' es fs = true := by
  simp only [o_C96_many, imp_iff, okImp_iff]
  rintro t ht ⟨ht', hov, he, hf⟩
  obtain ⟨c, c', h1, h2, h3⟩ := C96_many (Uax29.ordinary_closed T) A A b b' d d' t es fs h h' ht ht' (overB_iff.mp hov) (fitsAllB_fits _ he) (fitsAllB_fits _ hf)
  rw [h1, h2]
  exact decide_eq_true h3

end Scribe.Oracle
