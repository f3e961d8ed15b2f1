import Verif.Oracle.Guarded
import Verif.Oracle.SoundBuffer
import Verif.Props.Guarded
/-! # The executable forms of C110 follow from the theorems -/
namespace Scribe.Oracle
open Props Guarded
open Scribe.Buf (Cmd)

variable {S : Segmenter} {A : Alloc}

theorem s_C110_exact (g b c) : o_C110_exact S A g b c = true := by
  simp only [o_C110_exact, okImp_iff, decide_eq_true_eq]
  exact fun b1 h => C110_exact S A g b b1 c h

theorem s_C110_goes_on (g k t ss c) : o_C110_goes_on S A g k t ss c = true := by
  obtain ⟨⟨r, h1, ⟨u, h2⟩, h3⟩, ⟨r', h4, ⟨u', h5⟩, h6⟩⟩ := C110_goes_on S A g k t ss
  obtain ⟨b, h3⟩ := h3 c
  obtain ⟨b', h6⟩ := h6 c
  simp only [o_C110_goes_on, Bool.and_eq_true, okAnd_iff]
  exact ⟨⟨r, h1, ⟨u, h2, trivial⟩, b, h3, trivial⟩, ⟨r', h4, ⟨u', h5, trivial⟩, b', h6, trivial⟩⟩

theorem s_C110_unwound (g b c) : o_C110_unwound S A g b c = true := by
  simp only [o_C110_unwound, okImp_iff]
  intro b1 h o ho
  cases o with
  | done _ _ => rfl
  | unwound b' =>
    obtain ⟨h1, h2, h3, h4, h5, h6⟩ := C110_unwound S A g b b1 b' c h ho
    simp only [Bool.and_eq_true, decide_eq_true_eq, imp_iff]
    exact ⟨⟨⟨⟨⟨h1, h2⟩, h3⟩, h4⟩, h5⟩, fun hc => h6 hc.1 hc.2⟩

theorem usesB_of {w : Shared.World Unit} {b : Shared.Buf Unit} {c : Shared.Cell} {a : Buf} (h : Uses w b c a) : usesB w b (kind c) a = true := by
  simp only [usesB, h.cell, h.value, h.shared, h.history, h.group, h.callback, h.silent]
  simp

theorem s_C110_cells (n v a c) : o_C110_cells S A n v a c = true := by
  simp only [o_C110_cells, imp_iff, okImp_iff]
  intro hc a1 ha o ho
  have hu : Uses (placed { a with callback := false } n v).1 (placed { a with callback := false } n v).2 ⟨a.data, n, v⟩ { a with callback := false } :=
    ⟨rfl, rfl, rfl, rfl, rfl, rfl, rfl⟩
  obtain ⟨h1, h2⟩ := C110_cells S A (fun _ w => .ok w) _ _ _ _ a1 c hu hc ha
  cases o with
  | unwound a' => dsimp only; rw [h1 ⟨a', ho⟩]
  | done a' g' =>
    obtain ⟨b', w', c', e1, e2, e3⟩ := h2 a' g' ho
    simp only [okAnd_iff]
    exact ⟨_, e1, by rw [← e3]; exact usesB_of e2⟩

theorem s_C110_twice (g b s) : o_C110_twice S A g b s = true := by
  simp only [o_C110_twice, imp_iff, okImp_iff, decide_eq_true_eq]
  exact fun hg b1 h => C110_twice S A g hg.1 b b1 s hg.2 h

end Scribe.Oracle
