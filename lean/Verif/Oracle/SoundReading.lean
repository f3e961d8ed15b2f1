import Verif.Oracle.Reading
import Verif.Oracle.SoundBasic
import Verif.Props.Reading
/-! # The executable forms of C108 are the theorems -/
namespace Scribe.Oracle
open Spec Props GapBuffer

variable {S : Segmenter}

theorem s_C108_same {A : Alloc} (k : Nat) (t : Text) (cs : List Call) : o_C108_same S A k t cs = true := by
  simp only [o_C108_same, okAnd_iff, Bool.and_eq_true, decide_eq_true_eq]
  obtain ⟨os, g, w, h1, h2⟩ := C108_same S A k t cs
  exact ⟨_, h1, _, h2, rfl, rfl⟩

theorem s_C108_exact {A : Alloc} (k : Nat) (t : Text) (cs : List Call) (c : Call) : o_C108_exact S A k t cs c = true := by
  simp only [o_C108_exact, okAnd_iff, Bool.and_eq_true, decide_eq_true_eq]
  obtain ⟨os, g, o, g', h1, h2, h3⟩ := C108_exact S A k t cs c ⟨3, 5⟩
  exact ⟨_, h1, _, h2, _, h3, ⟨rfl, rfl⟩, rfl⟩

theorem s_C108_call {A : Alloc} (k : Nat) (t : Text) (cs : List Call) (c : Call) : o_C108_call S A k t cs c = true := by
  simp only [o_C108_call, okAnd_iff, okImp_iff, Bool.and_eq_true, decide_eq_true_eq]
  intro x h u hu
  obtain ⟨o, g', e, h1, h2, h3, h4⟩ := C108_call S A k t cs c x.1 x.2 u h hu
  refine ⟨_, h1, ⟨h2, h3⟩, ?_⟩
  cases c with
  | insert s p => simpa using h4 (Or.inl ⟨s, p, rfl⟩)
  | inBounds p => simpa using h4 (Or.inr ⟨p, rfl⟩)
  | delete p q => rfl
  | read p q => rfl
  | toStr => rfl

theorem s_C108_append {A : Alloc} (k : Nat) (t : Text) (ss : List Text) : o_C108_append S A k t ss = true := by
  simp only [o_C108_append, okAnd_iff, Bool.and_eq_true, decide_eq_true_eq]
  obtain ⟨os, g, h1, h2⟩ := C108_append S A k t ss
  exact ⟨_, h1, rfl, _, h2, rfl⟩

theorem s_C108_quadratic {A : Alloc} (k : Nat) (t : Text) (ss : List Text) : o_C108_quadratic S A k t ss = true := by
  unfold o_C108_quadratic
  cases hs : ss.all fun s => !s.isEmpty with
  | false => rfl
  | true =>
    simp only [Bool.not_true, Bool.false_or, okAnd_iff, decide_eq_true_eq]
    obtain ⟨os, g, w, h1, h2⟩ := C108_quadratic S A k t ss fun s h => by
      have := List.all_eq_true.mp hs s h
      rintro rfl
      simp at this
    exact ⟨_, h1, h2⟩

end Scribe.Oracle
