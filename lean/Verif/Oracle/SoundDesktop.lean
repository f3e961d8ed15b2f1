import Verif.Oracle.SoundProgram
import Verif.Oracle.Desktop
import Verif.Props.Desktop
/-! # The executable forms of C87 follow from the theorems -/
namespace Scribe.Oracle
open Spec Props

variable (S : Segmenter) (A : Alloc) (W : FileTree)

theorem s_C87_program (s : Syntaxes Nat) (root : Path) (disk : Disk) (as : List (Deed Nat)) (ps : List Position) (m : Nat) :
    o_C87_program S A W s root disk as ps m = true := by
  simp only [o_C87_program, someImp_iff, okAnd_iff]
  intro w0 h0
  obtain ⟨e, h1, h2, h3, h4, h5, h6⟩ := C87_program S A W _ root s w0 disk h0 as
  refine ⟨e, h1, ?_⟩
  simp only [Bool.and_eq_true, decide_eq_true_eq, List.all_eq_true]
  exact ⟨⟨⟨⟨fun n _ => congrFun h2 n, h3⟩, h4⟩, pairwiseB_iff (fun _ _ => showsB_iff) h5⟩, h6⟩

theorem s_C87_only_saves (s : Syntaxes Nat) (root : Path) (disk : Disk) (as : List (Deed Nat)) (a : Deed Nat) (m : Nat) :
    o_C87_only_saves S A W s root disk as a m = true := by
  simp only [o_C87_only_saves, someImp_iff, okImp_iff, Bool.or_eq_true, savesB_iff, List.all_eq_true, decide_eq_true_eq]
  intro w0 h0 e he
  by_cases ha : Saves a
  · exact Or.inl ha
  · exact Or.inr fun e' he' n _ => congrFun (C87_only_saves S A W e e' a ha he') n

theorem s_C87_files (s : Syntaxes Nat) (root : Path) (disk : Disk) (as : List (Deed Nat)) (n : Nat) : o_C87_files S A W s root disk as n = true := by
  simp only [o_C87_files, someImp_iff, okImp_iff, Bool.or_eq_true, List.any_eq_true, decide_eq_true_eq]
  intro w0 h0 e he
  rcases C87_files S A W _ root s w0 disk h0 as e he n with h | ⟨pre, a, post, e1, b, t, k, rfl, k2, k3, k4, k5, k6⟩
  · exact Or.inl h
  · refine Or.inr ⟨pre.length, by simp, ?_⟩
    simp only [someAnd_iff, Bool.and_eq_true, okAnd_iff, decide_eq_true_eq, savesB_iff]
    refine ⟨a, by simp, k2, e1, by rw [List.take_left]; exact k3, b, k4, t, k5, _, k6, List.take_prefix _ _⟩

end Scribe.Oracle
