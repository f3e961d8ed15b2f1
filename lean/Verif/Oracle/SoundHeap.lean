import Verif.Oracle.Heap
import Verif.Oracle.SoundShared
import Verif.Props.Heap
/-! # The executable forms of C106 follow from the theorems -/
namespace Scribe.Oracle
open Heap Props

variable {S : Segmenter} {A : Alloc}

theorem fine_iff {α : Type} {r : HR α} {P : α → Bool} : fine r P = true ↔ ∃ a, r = .ok a ∧ P a = true := by
  cases r <;> simp [fine]

theorem s_C106_counts (cs : List Step) : o_C106_counts S A cs = true := by
  obtain ⟨o, h1, h2⟩ := C106_counts S A cs
  simp only [o_C106_counts, fine_iff, List.all_eq_true, Bool.and_eq_true, decide_eq_true_eq]
  exact ⟨o, h1, fun p _ => h2 p⟩

theorem s_C106_no_leak (cs : List Step) : o_C106_no_leak S A cs = true := by
  obtain ⟨o, h1, _⟩ := C106_counts S A cs
  obtain ⟨o', h2, h3, h4, h5, h6⟩ := C106_no_leak S A cs o h1
  simp only [o_C106_no_leak, fine_iff, List.all_eq_true, Bool.and_eq_true, decide_eq_true_eq]
  exact ⟨o, h1, o', h2, ⟨⟨h3, h4⟩, h5⟩, h6⟩

theorem simple_iff {c : Step} (h : simpleB c = true) : c.Simple := by
  cases c <;> first | trivial | cases h

theorem s_C106_one_each (cs : List Step) : o_C106_one_each S A cs = true := by
  simp only [o_C106_one_each, imp_iff, fine_iff, List.all_eq_true, Bool.and_eq_true, decide_eq_true_eq]
  intro hc
  obtain ⟨o, h1, _⟩ := C106_counts S A cs
  have h2 := C106_one_each S A cs (fun c hm => simple_iff (hc c hm)) o h1
  exact ⟨o, h1, by simpa using h2.length_eq, fun b hb => h2.mem_iff.mpr (List.mem_map.mpr ⟨b, hb, rfl⟩)⟩

theorem s_C106_same (cs : List Step) (i : Nat) (c : Buf.Cmd) : o_C106_same S A cs i c = true := by
  obtain ⟨o, h1, _⟩ := C106_counts S A cs
  simp only [o_C106_same, fine_iff, someImp_iff, someAnd_iff, Bool.or_eq_true, Bool.and_eq_true, decide_eq_true_eq, imp_iff, List.all_eq_true]
  refine ⟨o, h1, fun b hb => ?_⟩
  by_cases hm : isMoveB c = true ∧ b.cursor.data ≠ b.data
  · exact Or.inl hm
  · obtain ⟨o', b', v, v', e1, e2, e3, e4, e5, e6, e7, e8, e9⟩ := C106_same S A cs o h1 i b hb c (fun m hc => by
      subst hc
      by_contra hn
      exact hm ⟨rfl, hn⟩)
    refine Or.inr ⟨o', e1, b', ?_, v, e5, v', e7, ⟨⟨⟨⟨e6, e3⟩, e4⟩, e2⟩, e8⟩, fun q hq => ?_⟩
    · rw [e2, List.getElem?_set_self (List.getElem?_eq_some_iff.mp hb).1]
    · by_cases hd : q = b.data
      · exact Or.inl hd
      · exact Or.inr (e9 q hq hd)

theorem s_C106_replace (cs : List Step) (i : Nat) (t : Text) : o_C106_replace S A cs i t = true := by
  obtain ⟨o, h1, _⟩ := C106_counts S A cs
  simp only [o_C106_replace, fine_iff, someImp_iff, someAnd_iff, Bool.and_eq_true, decide_eq_true_eq, imp_iff]
  refine ⟨o, h1, fun b hb v hv ht => ?_⟩
  obtain ⟨o', b', e1, e2, e3, e4, e5⟩ := C106_replace S A cs o h1 i b hb v hv t ht
  refine ⟨o', e1, b', ?_, ⟨e3, e4⟩, e5⟩
  rw [e2, List.getElem?_set_self (List.getElem?_eq_some_iff.mp hb).1]

theorem s_C106_made (cs : List Step) (c : Step) : o_C106_made S A cs c = true := by
  obtain ⟨o, h1, _⟩ := C106_counts S A cs
  simp only [o_C106_made, fine_iff, someImp_iff, Bool.and_eq_true, decide_eq_true_eq, List.all_eq_true]
  refine ⟨o, h1, fun m hm => ?_⟩
  obtain ⟨o', bs, e1, e2, e3, e4, e5, e6, e7⟩ := C106_made S A cs o h1 c m hm
  have hd : o'.buffers.drop o.buffers.length = bs := by rw [e2]; simp
  refine ⟨o', e1, ?_⟩
  rw [hd]
  exact ⟨⟨⟨⟨⟨by rw [e2]; simp, e3⟩, e4⟩, e5⟩, e6⟩, e7⟩

theorem s_C106_edit (cs : List Step) (k : Nat) (c : GapBuffer.Call) : o_C106_edit S A cs k c = true := by
  obtain ⟨o, h1, _⟩ := C106_counts S A cs
  simp only [o_C106_edit, fine_iff, someImp_iff, someAnd_iff]
  refine ⟨o, h1, fun q hq => ?_⟩
  obtain ⟨o', g, r, g', e1, e2, e3, e4, e5, e6, e7⟩ := C106_edit S A cs o h1 k q hq c
  refine ⟨o', e1, g, e2, ?_⟩
  simp only [e3, Bool.and_eq_true, decide_eq_true_eq, List.all_eq_true]
  exact ⟨⟨⟨e4, e5⟩, e6⟩, fun p _ => e7 p⟩

theorem s_C106_moved (cs : List Step) (j : Nat) (m : Cursor.Move) : o_C106_moved S A cs j m = true := by
  obtain ⟨o, h1, _⟩ := C106_counts S A cs
  simp only [o_C106_moved, fine_iff, someImp_iff, someAnd_iff]
  refine ⟨o, h1, fun c hc => ?_⟩
  obtain ⟨o', g, at', e1, e2, e3, e4, e5, e6, e7⟩ := C106_moved S A cs o h1 j c hc m
  refine ⟨o', e1, g, e2, ?_⟩
  simp only [e3, Bool.and_eq_true, decide_eq_true_eq]
  exact ⟨⟨⟨e4, e5⟩, e6⟩, e7⟩

end Scribe.Oracle
