import Verif.Demo
import Verif.Proofs.Grapheme
/-! C77: grapheme clusters are those of the standard. -/
namespace Scribe.Props
open Uax29 Spec.Grapheme

/-- **C77.** For every character table and every text, the automaton cuts the text exactly where the rules of UAX #29, read literally, allow a break. -/
theorem C77_rules (T : Table) (t : Text) (i : Nat) (hi : i ≤ t.length) :
    (∃ a b, segs T.cls t = a ++ b ∧ a.flatten = t.take i) ↔ Boundary T.cls t i := by
  cases t with
  | nil =>
    obtain rfl : i = 0 := by simpa using hi
    exact ⟨fun _ => Or.inl rfl, fun _ => ⟨[], _, rfl, rfl⟩⟩
  | cons c cs =>
    cases i with
    | zero => exact ⟨fun _ => Or.inl rfl, fun _ => ⟨[], _, rfl, rfl⟩⟩
    | succ k =>
      by_cases hk : k = cs.length
      · subst hk
        refine ⟨fun _ => Or.inr (Or.inl rfl), fun _ => ⟨segs T.cls (c :: cs), [], by simp, ?_⟩⟩
        rw [segs_join]; simp
      · have hlt : k < cs.length := by simp at hi; omega
        have h := go_boundary T.cls [c] [c] (by simp) (by simp) cs k cs[k] (List.getElem?_eq_getElem hlt)
        rw [show stOf ([c].map T.cls).reverse = start (T.cls c) from (start_stOf [] _ rfl).symm] at h
        rw [segs, List.take_succ_cons]
        simp only [List.cons_append, List.nil_append] at h
        rw [h]
        unfold Boundary
        rw [List.getElem?_cons_succ, List.getElem?_eq_getElem hlt, List.take_succ_cons]
        simp only [Nat.succ_ne_zero, List.length_cons, Nat.add_right_cancel_iff, hk, Option.some.injEq, exists_eq_left', false_or, joined_iff]
        simp

/-- C77: nothing else cuts a text at these places. -/
theorem C77_unique (T : Table) (t : Text) (ps : List Text) (hj : ps.flatten = t) (hne : ∀ p ∈ ps, p ≠ [])
    (h : ∀ i, i ≤ t.length → ((∃ a b, ps = a ++ b ∧ a.flatten = t.take i) ↔ Boundary T.cls t i)) : ps = segs T.cls t := by
  have hcut : ∀ (qs : List Text) (u : Text), qs.flatten = t → (∃ a b, qs = a ++ b ∧ a.flatten = u) → u = t.take u.length ∧ u.length ≤ t.length := by
    rintro qs u hq ⟨a, b, rfl, rfl⟩
    subst hq
    simp
  refine pieces_unique _ _ hne (segmenter T |>.nonempty t) (by rw [hj, segs_join]) ?_ ?_
  · intro u hu
    obtain ⟨e1, e2⟩ := hcut ps u hj hu
    have := (C77_rules T t _ e2).mpr ((h _ e2).mp (by rw [← e1]; exact hu))
    rwa [← e1] at this
  · intro u hu
    obtain ⟨e1, e2⟩ := hcut _ u (segs_join T t) hu
    have := (h _ e2).mpr ((C77_rules T t _ e2).mp (by rw [← e1]; exact hu))
    rwa [← e1] at this

/-- Rule GB11 looks back past the mark: no break before the second person in `👨`, mark, ZWJ, `👧`. -/
example : Joined ((Demo.s "a👨́‍").map Demo.cls) (Demo.cls '👧') :=
  Joined.gb11 [.other] [.extend] (by simp [Extending])

/-- After two regional indicators the third begins a new cluster. -/
example : Boundary Demo.cls (Demo.s "x🇦🇧🇨") 3 ∧ ¬ Boundary Demo.cls (Demo.s "x🇦🇧🇨") 2 := by
  constructor
  · exact (C77_rules Demo.table _ 3 (by decide)).mp ⟨[Demo.s "x", Demo.s "🇦🇧"], [Demo.s "🇨"], by decide, by decide⟩
  · rintro (h | h | ⟨c, h, h'⟩)
    · cases h
    · exact absurd h (by decide)
    · refine h' ?_
      obtain rfl : '🇧' = c := by simpa [Demo.s] using h
      exact Joined.gb13 [] .other 0 (by decide)

end Scribe.Props
