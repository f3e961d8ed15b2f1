import Verif.Spec.Text
import Verif.Proofs.EndPos
/-! Lemmas about positions and ranges. -/
namespace Scribe
open Spec

theorem gtb_iff (a b : Position) : a.gtb b = true ↔ Before b a := by
  unfold Position.gtb Position.cmp Before
  repeat' split
  all_goals simp
  all_goals omega

theorem ltb_iff (a b : Position) : a.ltb b = true ↔ Before a b := by
  unfold Position.ltb Position.cmp Before
  repeat' split
  all_goals simp
  all_goals omega

theorem geb_iff (a b : Position) : a.geb b = true ↔ AtOrBefore b a := by
  unfold Position.geb Position.cmp AtOrBefore
  repeat' split
  all_goals simp
  all_goals omega

theorem range_new (p q : Position) : Range.new p q = ⟨lo p q, hi p q⟩ := by
  unfold Range.new lo hi
  by_cases h : Before q p
  · rw [if_pos ((gtb_iff p q).mpr h)]
    unfold Before at h
    rw [if_neg (by omega), if_neg (by omega)]
  · rw [if_neg (by rw [gtb_iff]; exact h)]
    rw [not_before] at h; unfold AtOrBefore at h
    rw [if_pos h, if_pos h]

theorem lo_le_hi (p q : Position) : AtOrBefore (lo p q) (hi p q) := by
  unfold lo hi AtOrBefore; split <;> omega

theorem lo_of_le {p q : Position} (h : AtOrBefore p q) : lo p q = p := if_pos h
theorem hi_of_le {p q : Position} (h : AtOrBefore p q) : hi p q = q := if_pos h

theorem range_new_ok (p q : Position) : AtOrBefore (Range.new p q).start (Range.new p q).stop := by
  rw [range_new]; exact lo_le_hi p q

theorem range_new_of_le {p q : Position} (h : AtOrBefore p q) : Range.new p q = ⟨p, q⟩ := by
  rw [range_new, lo_of_le h, hi_of_le h]

end Scribe
