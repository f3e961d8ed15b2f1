import Verif.Oracle.Debug
import Verif.Oracle.SoundBasic
import Verif.Props.Debug
/-! # The executable forms of C114 follow from the theorems -/
namespace Scribe.Oracle
open Spec Props Debug

theorem s_C114_format (p : Position) (d : Distance) (r : Range) (l : LineRange) : o_C114_format p d r l = true := by
  simp only [o_C114_format, Bool.and_eq_true, decide_eq_true_eq, and_assoc]
  exact C114_format p d r l

theorem readB_readable {α : Type} [DecidableEq α] {f : α → Text} (h : Readable f) (x y : α) : readB f x y = true := by
  simp only [readB, imp_iff, decide_eq_true_eq]
  intro hp
  obtain ⟨u, hu⟩ := List.isPrefixOf_iff_prefix.mp hp
  exact (h x y u [] (by rw [hu, List.append_nil])).1

theorem scopeB_readable (k : Form) : Readable (scopeB k) := by
  intro x y u v h
  simp only [scopeB, List.append_assoc, List.append_cancel_left_eq] at h
  exact digits_cancel (t := []) (by omega) (by rintro ⟨k, hk, h⟩; revert k; decide) h

theorem s_C114_readable (plain : Char → Bool) (k : Form) (p p' : Position) (x y : Token Nat) : o_C114_readable plain k p p' x y = true := by
  obtain ⟨h1, h2, h3, h4, h5⟩ := C114_readable plain scopeB scopeB_readable k
  simp only [o_C114_readable, Bool.and_eq_true, readB_readable h1, readB_readable h2, readB_readable h3, readB_readable h4, readB_readable h5, and_self]

theorem s_C114_one_line (plain : Char → Bool) (x : Token Nat) : o_C114_one_line plain x = true := by
  have := C114_one_line plain scopeB (fun s => by simp [scopeB, digits_no_newline]) x
  simpa [o_C114_one_line] using this

end Scribe.Oracle
