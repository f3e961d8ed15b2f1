import Verif.Oracle.Exact
import Verif.Oracle.SoundBasic
import Verif.Props.Zipper
import Verif.Props.Recipe
import Verif.Props.Stranded
/-! # The executable forms in `Verif/Oracle/Exact.lean` follow from the theorems -/
namespace Scribe.Oracle
open Spec Props Buf

variable {S : Segmenter} {A : Alloc}

theorem s_C67 (k : Nat) (t : Text) (cs : List GapBuffer.Call) : o_C67_zipper S A k t cs = true := by
  simp only [o_C67_zipper, okAnd_iff, Bool.and_eq_true, decide_eq_true_eq]
  obtain ⟨g, h1, h2, h3, h4, h5, h6, h7⟩ := C67_zipper S A k t cs
  exact ⟨_, h1, ⟨⟨⟨⟨⟨⟨rfl, h2⟩, h3⟩, h4⟩, h5⟩, h6⟩, h7⟩⟩

theorem s_C67_memory (k : Nat) (t : Text) (cs : List GapBuffer.Call) (c : GapBuffer.Call) : o_C67_memory S A k t cs c = true := by
  simp only [o_C67_memory, okImp_iff, okAnd_iff, Bool.and_eq_true, Bool.or_eq_true, decide_eq_true_eq]
  rintro ⟨os, g⟩ h ⟨os', g'⟩ h'
  obtain ⟨u, u', h1, h2, h3, h4, h5⟩ := C67_memory S A k t cs c os os' g g' h h'
  refine ⟨u, h1, u', h2, ⟨h3, h4⟩, ?_⟩
  rcases h5 with h5 | ⟨s, p, rfl, h5, h6⟩
  · exact Or.inl h5
  · right
    simp only [Bool.and_eq_true, decide_eq_true_eq]
    exact ⟨h5, h6⟩

theorem s_C68 (k : Nat) (t : Option Text) (cs : List Cmd) (p : Position) : o_C68_recipes S A k t cs p = true := by
  simp only [o_C68_recipes, okAnd_iff, Bool.and_eq_true, decide_eq_true_eq]
  obtain ⟨b, h1, h2, h3, h4, h5, h6, h7, h8⟩ := C68_recipes S A k t cs
  exact ⟨b, h1, ⟨⟨⟨⟨⟨⟨h2, h3⟩, h4⟩, h5⟩, h6⟩, h7⟩, h8 p⟩⟩

theorem s_C69 (k : Nat) (t : Option Text) (cs cs' : List Cmd) : o_C69_edits_leave_cursor S A k t cs cs' = true := by
  simp only [o_C69_edits_leave_cursor, imp_iff, okImp_iff, decide_eq_true_eq]
  intro hc hm b h b' h'
  exact C69_edits_leave_cursor S A k t cs cs' b b' hc hm h h'

theorem s_C69_typing {b : Buf} {d : Doc} (h : Reached S A b d) (ss : List Text) : o_C69_typing_lost S A b d ss = true := by
  simp only [o_C69_typing_lost, imp_iff, okAnd_iff, Bool.and_eq_true, decide_eq_true_eq]
  intro hg hb
  obtain ⟨b', h1, h2, h3, h4, h5⟩ := C69_typing_lost S A b d ss h hg hb
  exact ⟨b', h1, ⟨⟨h2, h3⟩, h4⟩, h5⟩

end Scribe.Oracle
