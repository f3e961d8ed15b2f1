import Verif.Oracle.Grapheme
import Verif.Props.Grapheme
/-! # The executable form in `Verif/Oracle/Grapheme.lean` follows from the theorem -/
namespace Scribe.Oracle.Grapheme
open Uax29 Spec.Grapheme Props

theorem mem_cuts (ps : List Text) (i : Nat) : i ∈ cuts ps ↔ ∃ a b, ps = a ++ b ∧ a.flatten.length = i := by
  induction ps generalizing i with
  | nil =>
    simp only [cuts, List.mem_singleton]
    constructor
    · rintro rfl; exact ⟨[], [], rfl, rfl⟩
    · rintro ⟨a, b, h, rfl⟩
      rw [(List.append_eq_nil_iff.mp h.symm).1]; rfl
  | cons p ps ih =>
    simp only [cuts, List.mem_cons, List.mem_map, ih]
    constructor
    · rintro (rfl | ⟨j, ⟨a, b, rfl, rfl⟩, rfl⟩)
      · exact ⟨[], _, rfl, rfl⟩
      · exact ⟨p :: a, b, rfl, by simp⟩
    · rintro ⟨a, b, h, rfl⟩
      cases a with
      | nil => exact Or.inl rfl
      | cons x a =>
        simp only [List.cons_append, List.cons.injEq] at h
        obtain ⟨rfl, rfl⟩ := h
        exact Or.inr ⟨_, ⟨a, b, rfl, rfl⟩, by simp⟩

theorem boundary_iff (cls : Char → Cls) (t : Text) (i : Nat) : boundary cls t i = true ↔ Boundary cls t i := by
  unfold boundary Boundary
  cases h : t[i]? with
  | none => simp
  | some c => simp [joined_iff, or_assoc]

theorem s_C77 (T : Table) (t : Text) : o_C77_rules T.cls t = true := by
  simp only [o_C77_rules, Bool.and_eq_true, decide_eq_true_eq, List.all_eq_true, beq_iff_eq, List.mem_range]
  refine ⟨segs_join T t, fun i hi => ?_⟩
  have h := C77_rules T t i (by omega)
  rw [← boundary_iff] at h
  rw [Bool.eq_iff_iff, ← h, List.contains_iff_mem, mem_cuts]
  constructor
  · rintro ⟨a, b, e, rfl⟩
    refine ⟨a, b, e, ?_⟩
    have : t = a.flatten ++ b.flatten := by rw [← List.flatten_append, ← e, segs_join]
    rw [this]; simp
  · rintro ⟨a, b, e, ha⟩
    exact ⟨a, b, e, by rw [ha, List.length_take]; omega⟩

/-- The table of the samples. -/
def letterTable : Table where
  cls := letters
  lf := by
    intro c
    constructor
    · intro h
      unfold letters at h
      split at h <;> first | rfl | cases h
    · rintro rfl; rfl
  cr := by
    intro c
    constructor
    · intro h
      unfold letters at h
      split at h <;> first | rfl | cases h
    · rintro rfl; rfl

end Scribe.Oracle.Grapheme
