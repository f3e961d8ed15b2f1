import Verif.Spec.Text
import Verif.Proofs.EndPos
/-! Lemmas about the text specification. -/
namespace Scribe.Spec

theorem mem_splits {cs a b : List Text} : (a, b) ∈ splits cs ↔ cs = a ++ b := by
  unfold splits
  rw [List.mem_map]
  constructor
  · rintro ⟨n, _, h⟩
    obtain ⟨rfl, rfl⟩ := Prod.mk.inj h
    exact (List.take_append_drop n cs).symm
  · rintro rfl
    exact ⟨a.length, by simp; omega, by simp⟩

theorem locate_eq_some {cs p a b} : locate cs p = some (a, b) ↔ cs = a ++ b ∧ endPos a = p := by
  constructor
  · intro h
    exact ⟨mem_splits.mp (List.mem_of_find?_eq_some h), by simpa using List.find?_some h⟩
  · rintro ⟨h1, h2⟩
    cases h : locate cs p with
    | none =>
      have := List.find?_eq_none.mp h (a, b) (mem_splits.mpr h1)
      simp [h2] at this
    | some x =>
      obtain ⟨a', b'⟩ := x
      have k1 := mem_splits.mp (List.mem_of_find?_eq_some h)
      have k2 : endPos a' = p := by simpa using List.find?_some h
      obtain ⟨rfl, rfl⟩ := split_unique (k1.symm.trans h1) (k2.trans h2.symm)
      rfl

theorem locate_eq_none {cs p} : locate cs p = none ↔ ∀ a b, cs = a ++ b → endPos a ≠ p := by
  constructor
  · intro h a b hab hp
    rw [locate_eq_some.mpr ⟨hab, hp⟩] at h; cases h
  · intro h
    cases hl : locate cs p with
    | none => rfl
    | some x => obtain ⟨h1, h2⟩ := locate_eq_some.mp (show locate cs p = some (x.1, x.2) from hl); exact absurd h2 (h _ _ h1)

theorem locate_append {a b} : locate (a ++ b) (endPos a) = some (a, b) := locate_eq_some.mpr ⟨rfl, rfl⟩

theorem placeIn_iff {cs p pre post} : PlaceIn cs p pre post ↔
    ∃ a b, locate cs p = some (a, b) ∧ pre = a.flatten ∧ post = b.flatten := by
  constructor
  · rintro ⟨a, b, h1, h2, h3, h4⟩; exact ⟨a, b, locate_eq_some.mpr ⟨h1, h4⟩, h2, h3⟩
  · rintro ⟨a, b, h, h2, h3⟩
    obtain ⟨h1, h4⟩ := locate_eq_some.mp h
    exact ⟨a, b, h1, h2, h3, h4⟩

/-- The end of a located range cuts the part after its start. -/
theorem locate_mono {cs p q a b a' b'} (hp : locate cs p = some (a, b)) (hq : locate cs q = some (a', b'))
    (h : AtOrBefore p q) : ∃ d, a' = a ++ d ∧ b = d ++ b' := by
  obtain ⟨h1, h2⟩ := locate_eq_some.mp hp
  obtain ⟨h3, h4⟩ := locate_eq_some.mp hq
  exact split_mono (h1.symm.trans h3) (by rw [h2, h4]; exact h)

end Scribe.Spec
