import Verif.Oracle.Block
import Verif.Oracle.SoundSheet
import Verif.Props.Block
/-! # The executable forms of C113 follow from the theorems -/
namespace Scribe.Oracle
open Spec Props Buf

variable {A : Alloc} {b : Buf} {d : Doc} (T : Uax29.Table)

theorem oneStepB_iff {S : Segmenter} {cs : List Cmd} {t u : Text} : oneStepB S A b cs t u = true ↔
    ∃ b1 b2 b3, execAll S A b (asGroup cs) = .ok b1 ∧ b1.data.toStr = .ok u ∧ b1.history.previous.length = b.history.previous.length + 1 ∧
      exec S A b1 .undo = .ok b2 ∧ b2.data.toStr = .ok t ∧ exec S A b2 .redo = .ok b3 ∧ b3.data.toStr = .ok u := by
  simp only [oneStepB, okAnd_iff, Bool.and_eq_true, decide_eq_true_eq]
  constructor
  · rintro ⟨b1, h1, ⟨h2, h3⟩, b2, h4, h5, b3, h6, h7⟩
    exact ⟨b1, b2, b3, h1, h2, h3, h4, h5, h6, h7⟩
  · rintro ⟨b1, b2, b3, h1, h2, h3, h4, h5, h6, h7⟩
    exact ⟨b1, h1, ⟨h2, h3⟩, b2, h4, h5, b3, h6, h7⟩

theorem s_C113_indent (h : Reached (Uax29.segmenter T) A b d) (s : Text) (ls : List Nat) : o_C113_indent (Uax29.segmenter T) A T b s ls = true := by
  simp only [o_C113_indent, okImp_iff, imp_iff, overB_iff]
  intro t ht ho hs hg hcr hn hne hl
  exact oneStepB_iff.mpr (C113_indent (Uax29.ordinary_closed T) A b d h hg t ht ho hcr s hs hn ls hne hl)

theorem s_C113_outdent (h : Reached (Uax29.segmenter T) A b d) (n : Nat) (ls : List Nat) : o_C113_outdent (Uax29.segmenter T) A T b n ls = true := by
  simp only [o_C113_outdent, okImp_iff, imp_iff, overB_iff]
  intro t ht ho hg hcr hne hl
  refine oneStepB_iff.mpr (C113_outdent (Uax29.ordinary_closed T) A b d h hg t ht ho hcr n ls hne fun l hm => ?_)
  have := hl l hm
  cases hx : (splitNl t)[l]? with
  | none => rw [hx] at this; cases this
  | some x => exact ⟨x, rfl, by simpa [hx] using this⟩

theorem s_C113_back (h : Reached (Uax29.segmenter T) A b d) (s : Text) (ls : List Nat) : o_C113_back (Uax29.segmenter T) A T b s ls = true := by
  simp only [o_C113_back, okImp_iff, imp_iff, okAnd_iff, decide_eq_true_eq, overB_iff]
  intro t ht ho hs hcr hn hl
  exact C113_back (Uax29.ordinary_closed T) A b d h t ht ho hcr s hs hn ls ls.reverse (List.reverse_perm ls) hl

theorem s_C113_short {S : Segmenter} (h : Reached S A b d) (l n : Nat) : o_C113_short S A b l n = true := by
  simp only [o_C113_short, okImp_iff, imp_iff, someImp_iff, okAnd_iff, Bool.and_eq_true, decide_eq_true_eq]
  intro t ht hg hcr x hx hn
  obtain ⟨b1, b2, h1, h2, h3, h4⟩ := C113_short S A b d h hg t ht hcr l n x hx hn
  exact ⟨b1, h1, h2, b2, h3, h4⟩

end Scribe.Oracle
