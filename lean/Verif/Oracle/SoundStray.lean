import Verif.Oracle.Stray
import Verif.Oracle.SoundBasic
import Verif.Props.Stray
/-! # The executable forms of C117 are the theorems -/
namespace Scribe.Oracle
open Spec Props Buf

variable {S : Segmenter} {A : Alloc} {b : Buf} {d : Doc}

theorem s_C117_walk (h : Reached S A b d) (c : Cursor) (ms : List Cursor.Move) : o_C117_walk S A b c ms = true := by
  simp only [o_C117_walk, okImp_iff, imp_iff, decide_eq_true_eq]
  intro t ht hcr
  exact C117_walk S A b d h t ht hcr c ms

theorem s_C117_key (h : Reached S A b d) (c : Cursor) (m : Cursor.Move) : o_C117_key S A b c m = true := by
  simp only [o_C117_key, okImp_iff, okAnd_iff, imp_iff, Bool.and_eq_true, decide_eq_true_eq]
  intro t ht hcr hc
  obtain ⟨c', h1, h2, h3⟩ := C117_key S A b d h t ht hcr c hc m
  exact ⟨_, h1, ⟨rfl, h2⟩, h3⟩

theorem s_C117_below (h : Reached S A b d) (c : Cursor) (ms : List Cursor.Move) : o_C117_below S A b c ms = true := by
  simp only [o_C117_below, okImp_iff, imp_iff, decide_eq_true_eq]
  intro t ht hcr hl hm
  exact C117_below S A b d h t ht hcr c hl ms hm

theorem s_C117_beside (h : Reached S A b d) (c : Cursor) (ms : List Cursor.Move) : o_C117_beside S A b c ms = true := by
  simp only [o_C117_beside, okImp_iff, imp_iff, decide_eq_true_eq]
  intro t ht hcr hnl ⟨h0, ho⟩ hm
  exact C117_beside S A b d h t ht hcr hnl c h0 ho ms hm

theorem s_C117_home (h : Reached S A b d) (c : Cursor) : o_C117_home S A b c = true := by
  simp only [o_C117_home, okImp_iff, imp_iff, decide_eq_true_eq]
  intro t ht hcr
  exact C117_home S A b d h t ht hcr c

end Scribe.Oracle
