import Verif.Oracle.Cost
import Verif.Oracle.SoundBasic
import Verif.Props.Cost
/-! # The executable forms of C80 and C81 are the theorems -/
namespace Scribe.Oracle
open Spec Props GapBuffer

variable {S : Segmenter}

theorem le_foldl_max (l : List Nat) (a : Nat) : a ≤ l.foldl max a ∧ ∀ x ∈ l, x ≤ l.foldl max a := by
  induction l generalizing a with
  | nil => simp
  | cons y l ih =>
    obtain ⟨h1, h2⟩ := ih (max a y)
    simp only [List.foldl_cons, List.mem_cons, forall_eq_or_imp]
    exact ⟨by omega, by omega, h2⟩

theorem le_peak {A : Alloc} {g0 : GapBuffer} {pre post : List Call} {c : Call} {os g u} (h : run S A g0 pre = .ok (os, g)) (hu : toStr g = .ok u) :
    blen u + demand c ≤ peak S A g0 (pre ++ c :: post) := by
  refine (le_foldl_max _ 0).2 _ (List.mem_map.mpr ⟨pre.length, List.mem_range.mpr (by simp), ?_⟩)
  rw [List.take_left' rfl, h]
  simp only [hu]
  rw [List.getElem?_append_right (Nat.le_refl _)]
  simp

theorem s_C80 (k : Nat) (t : Text) (cs : List Call) : o_C80_memory S k t cs = true := by
  simp only [o_C80_memory, okImp_iff, Bool.and_eq_true, Bool.or_eq_true, decide_eq_true_eq]
  intro x h
  rcases C80_memory S vec vec_doubling k t cs _ (fun pre c post e os g u hr hu => e ▸ le_peak hr hu) _ _ h with h | ⟨r, h1, h2, h3, h4, h5⟩
  · exact Or.inl h
  · right
    have : x.2.clock - (new vec k t).clock = r := by omega
    rw [this]
    exact ⟨⟨⟨⟨h1, h2⟩, h3⟩, h4⟩, h5⟩

theorem s_C81_counter {A : Alloc} (k : Nat) (t : Text) (cs : List Call) : o_C81_counter S A k t cs = true := by
  simp only [o_C81_counter, okAnd_iff, Bool.and_eq_true, decide_eq_true_eq]
  obtain ⟨os, g, n, h1, h2⟩ := C81_counter S A k t cs
  exact ⟨_, h1, _, h2, rfl, rfl⟩

theorem s_C81_call {A : Alloc} (k : Nat) (t : Text) (cs : List Call) (c : Call) : o_C81_call S A k t cs c = true := by
  simp only [o_C81_call, okAnd_iff, okImp_iff, decide_eq_true_eq]
  intro x h u hu
  obtain ⟨o, g', n, h1, h2⟩ := C81_call S A k t cs x.1 x.2 u h hu c
  exact ⟨_, h1, h2⟩

theorem s_C81_exact {A : Alloc} (k : Nat) (t : Text) (cs : List Call) (c : Call) : o_C81_exact S A k t cs c = true := by
  simp only [o_C81_exact, okAnd_iff, okImp_iff, decide_eq_true_eq]
  intro x h
  obtain ⟨o, g', h1⟩ := C81_exact S A k t cs x.1 x.2 h c
  exact ⟨_, h1, rfl⟩

theorem s_C81_typing (k : Nat) (t : Text) (cs : List Call) (ss : List Text) : o_C81_typing S k t cs ss = true := by
  simp only [o_C81_typing, okAnd_iff, okImp_iff, Bool.and_eq_true, decide_eq_true_eq]
  intro x h u hu
  obtain ⟨os', g', n, h1, h2, h3, h4⟩ := C81_typing S vec vec_doubling k t cs ss x.1 x.2 u h hu
  exact ⟨_, h1, ⟨h2, h3⟩, h4⟩

end Scribe.Oracle
