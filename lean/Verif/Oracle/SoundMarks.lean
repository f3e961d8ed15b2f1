import Verif.Oracle.Marks
import Verif.Oracle.SoundBuffer
import Verif.Props.Marks
/-! # The executable forms of C95 follow from the theorems -/
namespace Scribe.Oracle
open Spec Props Buf

variable {S : Segmenter} {A : Alloc} {b : Buf} {d : Doc}

theorem s_C95_join (h : Reached S A b d) (p q r : Position) : o_C95_join S b p q r = true := by
  simp only [o_C95_join, imp_iff, okImp_iff]
  rintro ⟨hpq, hqr⟩ u hu v hv
  split
  · exact decide_eq_true (C95_join A b d p q r _ _ h hpq hqr hu hv)
  · rfl

theorem s_C95_insert (h : Reached S A b d) (s : Text) (q r : Position) : o_C95_insert S A b d s q r = true := by
  simp only [o_C95_insert, imp_iff, okImp_iff, Bool.and_eq_true, decide_eq_true_eq]
  intro hc b' he hp
  obtain ⟨h1, h2, h3, h4⟩ := C95_insert A b b' d s h hc he hp _ rfl
  exact ⟨⟨⟨h1 q, fun hh => h2 q r hh.1 hh.2⟩, fun hh => h3 q r hh.1 hh.2⟩, h4⟩

theorem s_C95_delete (h : Reached S A b d) (p q r r' : Position) : o_C95_delete S A b d p q r r' = true := by
  simp only [o_C95_delete, imp_iff, okImp_iff, Bool.and_eq_true, decide_eq_true_eq]
  intro hpq hc b' he hp
  obtain ⟨h1, h2, h3⟩ := C95_delete A b b' d p q h hpq hc he hp.1 hp.2 _ rfl
  exact ⟨⟨h1 r, fun hh => h2 r r' hh.1 hh.2⟩, fun hh => h3 r r' hh.1 hh.2⟩

theorem s_C95_session (h : Reached S A b d) (cs : List Cmd) (m : Position) (c : Text) : o_C95_session S A b d cs m c = true := by
  simp only [o_C95_session, imp_iff, okImp_iff]
  intro hc b' he hm
  split
  · rename_i m' hs
    exact decide_eq_true (C95_session A b b' d cs m m' c h hc he hm.1 hm.2 hs)
  · rfl

end Scribe.Oracle
