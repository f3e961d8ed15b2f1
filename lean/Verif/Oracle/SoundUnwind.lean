import Verif.Oracle.Unwind
import Verif.Oracle.SoundBuffer
import Verif.Props.Unwind
/-! # The executable forms of C90 follow from the theorems -/
namespace Scribe.Oracle
open Spec Props Unwind
open Scribe.Buf (Cmd)

variable {S : Segmenter} {A : Alloc} {fate : Fate}

theorem s_C90_goes_on (k t cs) : o_C90_goes_on S A fate k t cs = true := by
  obtain ⟨⟨b, u, h1, h2⟩, ⟨b', u', h3, h4⟩⟩ := C90_goes_on S A fate k t cs
  simp only [o_C90_goes_on, Bool.and_eq_true, okAnd_iff]
  exact ⟨⟨b, h1, u, h2, trivial⟩, ⟨b', h3, u', h4, trivial⟩⟩

theorem s_C90_returned (b c) : o_C90_returned S A fate b c = true := by
  simp only [o_C90_returned, okImp_iff]
  intro o h
  cases o with
  | done b' => exact decide_eq_true (C90_returned S A fate b b' c h)
  | unwound b' => rfl

theorem s_C90_quiet (b c) : o_C90_quiet S A fate b c = true := by
  simp only [o_C90_quiet, Bool.and_eq_true, decide_eq_true_eq, imp_iff]
  exact ⟨C90_quiet S A _ b c (Or.inr fun _ => rfl), fun h => C90_quiet S A fate b c (Or.inl h)⟩

theorem editsB_iff {c : Cmd} : editsB c = true ↔ Unwind.Edits c := by
  cases c <;> simp [editsB, Unwind.Edits]

theorem looksB_iff {x : R Buf} {b' : Buf} :
    looksB x b' = true ↔ ∃ b1, x = .ok b1 ∧ b'.data = b1.data ∧ b'.cursor = b1.cursor ∧ b'.log = b1.log := by
  simp only [looksB, okAnd_iff, Bool.and_eq_true, decide_eq_true_eq, and_assoc]

theorem s_C90_unwound_edit (b c) : o_C90_unwound_edit S A fate b c = true := by
  simp only [o_C90_unwound_edit, okImp_iff]
  intro o h
  cases o with
  | done b' => rfl
  | unwound b' =>
    simp only [imp_iff, editsB_iff, looksB_iff, Bool.and_eq_true, decide_eq_true_eq]
    intro hc
    obtain ⟨h1, h2, h3, h4⟩ := C90_unwound_edit S A fate b b' c hc h
    exact ⟨⟨⟨h1, h2⟩, h3⟩, h4⟩

theorem s_C90_only_edits (b c) : o_C90_only_edits S A fate b c = true := by
  simp only [o_C90_only_edits, okImp_iff]
  intro o h
  cases o with
  | done b' => rfl
  | unwound b' =>
    simp only [Bool.or_eq_true, editsB_iff, decide_eq_true_eq, or_assoc]
    exact C90_only_edits S A fate b b' c h

theorem s_C90_unwound_undo (b) : o_C90_unwound_undo S A fate b = true := by
  simp only [o_C90_unwound_undo, okImp_iff]
  intro o h
  cases o with
  | done b' => rfl
  | unwound b' =>
    obtain ⟨h1, h2, h3⟩ := C90_unwound_undo S A fate b b' h
    simp only [Bool.and_eq_true, decide_eq_true_eq]
    refine ⟨⟨h1, h2⟩, ?_⟩
    rcases h3 with ⟨op, h3, h4⟩ | ⟨xs, ys, b1, h3, hy, h4⟩
    · rw [h3]; exact decide_eq_true h4
    · rw [h3]
      simp only [List.any_eq_true, List.mem_range, looksB_iff]
      refine ⟨xs.length, ?_, b1, by simpa using h4⟩
      have := List.length_pos_of_ne_nil hy
      simp only [List.length_append]; omega

theorem s_C90_reports (b c) : o_C90_reports S A fate b c = true := by
  obtain ⟨k1, k2⟩ := C90_reports S A fate b c
  simp only [o_C90_reports, okImp_iff]
  intro o h
  cases o with
  | done b' =>
    obtain ⟨ps, e1, e2⟩ := k1 b' h
    simp only [Bool.and_eq_true, decide_eq_true_eq, List.all_eq_true, List.mem_range, Bool.not_eq_true']
    exact ⟨by rw [e1, List.take_left], fun i hi => e2 i (by rw [e1, List.length_append] at hi; omega)⟩
  | unwound b' =>
    obtain ⟨ps, p, e1, e2, e3⟩ := k2 b' h
    have hl : b'.log.length = b.log.length + ps.length + 1 := by rw [e1]; simp; omega
    simp only [Bool.and_eq_true, decide_eq_true_eq, List.all_eq_true, List.mem_range, Bool.not_eq_true']
    refine ⟨⟨⟨by rw [e1, List.append_assoc, List.take_left], by omega⟩, ?_⟩, fun i hi => e3 i (by omega)⟩
    rw [hl, Nat.add_sub_cancel]; exact e2

theorem s_C90_unwound_redo (b) : o_C90_unwound_redo S A fate b = true := by
  simp only [o_C90_unwound_redo, okImp_iff]
  intro o h
  cases o with
  | done b' => rfl
  | unwound b' =>
    obtain ⟨h1, h2, h3⟩ := C90_unwound_redo S A fate b b' h
    simp only [Bool.and_eq_true, decide_eq_true_eq]
    refine ⟨⟨h1, h2⟩, ?_⟩
    rcases h3 with ⟨op, h3, h4⟩ | ⟨xs, ys, b1, h3, hx, h4⟩
    · rw [h3]; exact decide_eq_true h4
    · rw [h3]
      simp only [List.any_eq_true, List.mem_range, looksB_iff]
      have := List.length_pos_of_ne_nil hx
      refine ⟨xs.length - 1, ?_, b1, ?_⟩
      · simp only [List.length_append]; omega
      · rw [Nat.sub_add_cancel this]; simpa using h4

end Scribe.Oracle
