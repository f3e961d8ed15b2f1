import Mathlib.Data.List.Induction
import Verif.Spec.Position
/-! Lemmas about positions and `endPos`. -/
namespace Scribe.Spec

theorem AtOrBefore.refl (p : Position) : AtOrBefore p p := Or.inr ⟨rfl, Nat.le_refl _⟩
theorem AtOrBefore.trans {p q r : Position} (h : AtOrBefore p q) (h' : AtOrBefore q r) : AtOrBefore p r := by
  unfold AtOrBefore at *; omega
theorem Before.trans {p q r : Position} (h : Before p q) (h' : Before q r) : Before p r := by
  unfold Before at *; omega
theorem Before.le {p q : Position} (h : Before p q) : AtOrBefore p q := by
  unfold Before AtOrBefore at *; omega
theorem Before.irrefl (p : Position) : ¬ Before p p := by unfold Before; omega
theorem Before.trans_le {p q r : Position} (h : Before p q) (h' : AtOrBefore q r) : Before p r := by
  unfold Before AtOrBefore at *; omega
theorem AtOrBefore.trans_lt {p q r : Position} (h : AtOrBefore p q) (h' : Before q r) : Before p r := by
  unfold Before AtOrBefore at *; omega
theorem atOrBefore_iff {p q : Position} : AtOrBefore p q ↔ Before p q ∨ p = q := by
  cases p; cases q; simp only [Before, AtOrBefore, Position.mk.injEq]; omega
theorem before_trichotomy (p q : Position) : Before p q ∨ p = q ∨ Before q p := by
  cases p; cases q; simp only [Before, Position.mk.injEq]; omega
theorem not_before {p q : Position} : ¬ Before p q ↔ AtOrBefore q p := by
  unfold Before AtOrBefore; omega

/-- The position after one more cluster. -/
def step (p : Position) (c : Text) : Position :=
  if c = ['\n'] then ⟨p.line + 1, 0⟩ else ⟨p.line, p.offset + 1⟩

@[simp] theorem endPos_nil : endPos [] = ⟨0, 0⟩ := rfl

theorem endPos_concat (cs : List Text) (c : Text) : endPos (cs ++ [c]) = step (endPos cs) c := by
  unfold endPos step
  by_cases h : c = ['\n']
  · subst h; simp [List.count_append]
  · rw [if_neg h]
    have h' : (c != ['\n']) = true := by simpa using h
    rw [List.count_append, List.reverse_append, List.reverse_singleton, List.singleton_append,
      List.takeWhile_cons, if_pos h', List.length_cons, List.count_singleton]
    simp [h]

theorem endPos_append (a b : List Text) : endPos (a ++ b) = b.foldl step (endPos a) := by
  induction b generalizing a with
  | nil => simp
  | cons c b ih =>
    have : a ++ c :: b = (a ++ [c]) ++ b := by simp
    rw [this, ih, endPos_concat]; rfl

theorem endPos_eq_foldl (a : List Text) : endPos a = a.foldl step ⟨0, 0⟩ := by
  have := endPos_append [] a
  simpa using this

theorem before_step (p : Position) (c : Text) : Before p (step p c) := by
  unfold step Before; split <;> simp

theorem le_foldl_step (b : List Text) (p : Position) : AtOrBefore p (b.foldl step p) := by
  induction b generalizing p with
  | nil => exact .refl p
  | cons c b ih => exact ((before_step p c).trans_le (ih _)).le

theorem before_foldl_step {b : List Text} (h : b ≠ []) (p : Position) : Before p (b.foldl step p) := by
  cases b with
  | nil => exact absurd rfl h
  | cons c b => exact (before_step p c).trans_le (le_foldl_step b _)

theorem step_mono {p q : Position} (h : AtOrBefore p q) (c : Text) : AtOrBefore (step p c) (step q c) := by
  unfold step AtOrBefore at *; split <;> simp <;> omega

theorem step_mono_lt {p q : Position} (h : Before p q) (c : Text) (hc : c ≠ ['\n']) : Before (step p c) (step q c) := by
  unfold step Before at *; rw [if_neg hc, if_neg hc]; simp; omega

theorem endPos_le_append (a b : List Text) : AtOrBefore (endPos a) (endPos (a ++ b)) := by
  rw [endPos_append]; exact le_foldl_step _ _

theorem endPos_lt_append (a : List Text) {b : List Text} (h : b ≠ []) : Before (endPos a) (endPos (a ++ b)) := by
  rw [endPos_append]; exact before_foldl_step h _

/-- A cluster list has at most one prefix ending at a given position. -/
theorem split_unique {a b a' b' : List Text} (h : a ++ b = a' ++ b') (hp : endPos a = endPos a') :
    a = a' ∧ b = b' := by
  rcases List.append_eq_append_iff.mp h with ⟨c, rfl, rfl⟩ | ⟨c, rfl, rfl⟩
  · by_cases hc : c = []
    · simp [hc]
    · have := endPos_lt_append a hc; rw [← hp] at this; exact absurd this (Before.irrefl _)
  · by_cases hc : c = []
    · simp [hc]
    · have := endPos_lt_append a' hc; rw [hp] at this; exact absurd this (Before.irrefl _)

/-- The prefix ending at an earlier position is a prefix of the one ending at a later position. -/
theorem split_mono {a b a' b' : List Text} (h : a ++ b = a' ++ b') (hp : AtOrBefore (endPos a) (endPos a')) :
    ∃ c, a' = a ++ c ∧ b = c ++ b' := by
  rcases List.append_eq_append_iff.mp h with ⟨c, rfl, rfl⟩ | ⟨c, rfl, rfl⟩
  · exact ⟨c, rfl, rfl⟩
  · by_cases hc : c = []
    · subst hc; exact ⟨[], by simp, by simp⟩
    · have := (endPos_lt_append a' hc).trans_le hp; exact absurd this (Before.irrefl _)

theorem split_mono_lt {a b a' b' : List Text} (h : a ++ b = a' ++ b') (hp : Before (endPos a) (endPos a')) :
    ∃ c, c ≠ [] ∧ a' = a ++ c ∧ b = c ++ b' := by
  obtain ⟨c, h1, h2⟩ := split_mono h hp.le
  refine ⟨c, ?_, h1, h2⟩
  rintro rfl
  rw [List.append_nil] at h1; rw [h1] at hp; exact Before.irrefl _ hp

/-- `endPos` of a concatenation. -/
theorem endPos_append_eq (a b : List Text) : endPos (a ++ b) =
    if (endPos b).line = 0 then ⟨(endPos a).line, (endPos a).offset + (endPos b).offset⟩
    else ⟨(endPos a).line + (endPos b).line, (endPos b).offset⟩ := by
  induction b using List.reverseRecOn with
  | nil => simp
  | append_singleton b c ih =>
    rw [← List.append_assoc, endPos_concat, endPos_concat, ih]
    unfold step
    split <;> split <;> simp_all [Nat.add_assoc]

theorem endPos_line_zero {b : List Text} (h : ['\n'] ∉ b) : endPos b = ⟨0, b.length⟩ := by
  induction b using List.reverseRecOn with
  | nil => simp
  | append_singleton b c ih =>
    have hc : c ≠ ['\n'] := by rintro rfl; simp at h
    rw [endPos_concat, ih (fun hm => h (by simp [hm])), step, if_neg hc]; simp

end Scribe.Spec
