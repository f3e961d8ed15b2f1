import Verif.Oracle.BufferReading
import Verif.Oracle.SoundBasic
import Verif.Props.BufferReading
/-! # The executable forms of C111 are the theorems -/
namespace Scribe.Oracle
open Spec Props Buf

variable {S : Segmenter} {A : Alloc}

theorem s_C111_exact (k : Nat) (t : Option Text) (cs : List Cmd) (c : Cmd) : o_C111_exact S A k t cs c = true := by
  simp only [o_C111_exact, okAnd_iff, Bool.and_eq_true, decide_eq_true_eq]
  obtain ⟨b, b', h1, h2, h3⟩ := C111_exact S A k t cs c ⟨3, 5⟩
  exact ⟨b, h1, b', h2, _, h3, rfl, rfl⟩

theorem s_C111_call (k : Nat) (t : Option Text) (cs : List Cmd) (c : Cmd) : o_C111_call S A k t cs c = true := by
  simp only [o_C111_call, within, okAnd_iff, okImp_iff, Bool.and_eq_true, Bool.or_eq_true, decide_eq_true_eq]
  by_cases h1 : c = .undo
  · exact Or.inl (Or.inl h1)
  by_cases h2 : c = .redo
  · exact Or.inl (Or.inr h2)
  refine Or.inr fun b hb u hu => ?_
  obtain ⟨b', e, h3, h4, h5⟩ := C111_call S A k t cs c ⟨h1, h2⟩ b hb u hu
  exact ⟨_, h3, h4, h5⟩

theorem s_C111_steps (k : Nat) (t : Option Text) (cs : List Cmd) : o_C111_steps S A k t cs = true := by
  simp only [o_C111_steps, within, okAnd_iff, okImp_iff, someImp_iff, Bool.and_eq_true, decide_eq_true_eq]
  intro b hb u hu
  obtain ⟨h1, h2⟩ := C111_steps S A k t cs b hb u hu
  refine ⟨fun rs hrs => ?_, fun rs hrs => ?_⟩
  · obtain ⟨b', e, h3, h4, h5⟩ := h1 rs hrs
    exact ⟨_, h3, h4, h5⟩
  · obtain ⟨b', e, h3, h4, h5⟩ := h2 rs hrs
    exact ⟨_, h3, h4, h5⟩

theorem s_C111_end (k : Nat) (t : Option Text) (cs : List Cmd) (s : Text) : o_C111_end S A k t cs s = true := by
  simp only [o_C111_end, okAnd_iff, okImp_iff, imp_iff, Bool.and_eq_true, decide_eq_true_eq]
  intro b hb u hu hd
  obtain ⟨⟨b1, e1, h1, h2⟩, ⟨b2, e2, h3, h4⟩⟩ := C111_end S A k t cs b hb u hu s hd
  exact ⟨⟨_, h1, h2⟩, ⟨_, h3, h4⟩⟩

end Scribe.Oracle
