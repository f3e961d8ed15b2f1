import Verif.Oracle.PathStr
import Verif.Oracle.SoundBasic
import Verif.Props.PathStr
/-! # The executable forms of C109 are the theorems -/
namespace Scribe.Oracle
open Spec Props PathStr

theorem s_C109_meaning (s : Bytes) : o_C109_meaning s = true := decide_eq_true (C109_meaning s)

theorem s_C109_file_name (s : Bytes) : o_C109_file_name s = true := by
  simp only [o_C109_file_name, Bool.and_eq_true, decide_eq_true_eq]
  exact C109_file_name s

theorem s_C109_same (a b : Bytes) : o_C109_same a b = true := by
  simp only [o_C109_same, Bool.and_eq_true, Bool.or_eq_true, decide_eq_true_eq, List.isEmpty_iff]
  obtain ⟨h1, h2, h3⟩ := C109_same a b
  refine ⟨⟨h1, h2⟩, ?_⟩
  by_cases ha : a = []
  · exact Or.inl ha
  · exact Or.inr (h3 ha)

theorem s_C109_strip (s w : Bytes) : o_C109_strip s w = true := by
  obtain ⟨h1, h2⟩ := C109_strip s w
  simp only [o_C109_strip, Bool.and_eq_true, decide_eq_true_eq]
  refine ⟨h1, ?_⟩
  cases h : PathStr.stripPrefix s w with
  | none => rfl
  | some r => simpa using h2 r h

theorem s_C109_trimmed (s w : Bytes) : o_C109_trimmed s w = true := by
  unfold o_C109_trimmed
  by_cases hw : components w = []
  · simp [hw]
  · simp only [hw, decide_false, Bool.false_or]
    cases h : PathStr.stripPrefix s w with
    | none => rfl
    | some r =>
      obtain ⟨⟨x, y, h1⟩, h2⟩ := C109_trimmed s w r hw h
      simp only [Bool.and_eq_true, List.any_eq_true, decide_eq_true_eq, Bool.or_eq_true]
      refine ⟨⟨x.length, List.mem_range.mpr (by rw [h1]; simp; omega), by rw [h1]; simp⟩, ?_⟩
      rcases h2 with h2 | ⟨c, d, k1, k2, k3⟩
      · exact Or.inl h2
      · right
        rw [k1, k2]
        simpa [and_assoc] using k3

theorem isName_iff (n : Bytes) : isName n = true ↔ IsName n := by
  simp only [isName, IsName, Bool.and_eq_true, decide_eq_true_eq, and_assoc]

theorem s_C109_canonical (ws ns : List Bytes) : o_C109_canonical ws ns = true := by
  unfold o_C109_canonical
  cases hv : ws.all isName && ns.all isName with
  | false => rfl
  | true =>
    simp only [Bool.and_eq_true, List.all_eq_true, isName_iff] at hv
    obtain ⟨h1, h2, h3⟩ := C109_canonical ws ns hv.1 hv.2
    simp only [Bool.not_true, Bool.false_or, Bool.and_eq_true, decide_eq_true_eq]
    refine ⟨h1, ?_⟩
    split
    · rename_i ht
      exact h2 _ (by conv_lhs => rw [← List.take_append_drop ws.length ns, ht])
    · rename_i ht
      exact h3 fun rs e => ht (by rw [e]; simp)

end Scribe.Oracle
