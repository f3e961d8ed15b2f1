import Verif.Oracle.Walk
import Verif.Oracle.SoundBasic
import Verif.Props.Walk
/-! # The executable forms of C112 are the theorems -/
namespace Scribe.Oracle
open Spec Props Buf

variable {S : Segmenter} {A : Alloc} {b b' : Buf} {d d' : Doc}

theorem s_C112_walk (h : Reached S A b d) (ms : List Cursor.Move) : o_C112_walk S A b ms = true := by
  simp only [o_C112_walk, okImp_iff, imp_iff, Bool.and_eq_true, decide_eq_true_eq]
  intro t ht hcr hb
  exact C112_walk S A b d h t ht hcr hb ms

theorem s_C112_route (h : Reached S A b d) (p : Position) (ups lefts : Nat) : o_C112_route S A b p ups lefts = true := by
  simp only [o_C112_route, okImp_iff, okAnd_iff, imp_iff, Bool.and_eq_true, decide_eq_true_eq]
  intro t ht hcr hb hp ⟨hu, hl⟩
  obtain ⟨c, h1, h2⟩ := C112_route S A b d h t ht hcr hb p hp ups lefts hu hl
  exact ⟨_, h1, h2, rfl⟩

theorem s_C112_lengths (h : Reached S A b d) (h' : Reached S A b' d') (ms : List Cursor.Move) : o_C112_lengths S A b b' ms = true := by
  simp only [o_C112_lengths, okImp_iff, okAnd_iff, imp_iff, Bool.and_eq_true, decide_eq_true_eq]
  intro t ht t' ht' hcr hcr' hb ⟨hc, hl⟩
  obtain ⟨c, h1, h2⟩ := C112_lengths S A b b' d d' h h' t t' ht ht' hcr hcr' hb hc hl ms
  exact ⟨_, h1, rfl, h2⟩

end Scribe.Oracle
