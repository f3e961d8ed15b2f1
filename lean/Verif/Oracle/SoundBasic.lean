import Verif.Oracle.Basic
import Verif.Proofs.Text
import Verif.Proofs.Utf8
/-! # Facts about the executable vocabulary -/
namespace Scribe.Oracle
open Spec Props

@[simp] theorem okAnd_iff {α : Type} {r : R α} {P : α → Bool} : okAnd r P = true ↔ ∃ a, r = .ok a ∧ P a = true := by
  unfold okAnd; cases r <;> simp

@[simp] theorem okImp_iff {α : Type} {r : R α} {P : α → Bool} : okImp r P = true ↔ ∀ a, r = .ok a → P a = true := by
  unfold okImp; cases r <;> simp

@[simp] theorem someImp_iff {α : Type} {r : Option α} {P : α → Bool} : someImp r P = true ↔ ∀ a, r = some a → P a = true := by
  unfold someImp; cases r <;> simp

@[simp] theorem someAnd_iff {α : Type} {r : Option α} {P : α → Bool} : someAnd r P = true ↔ ∃ a, r = some a ∧ P a = true := by
  unfold someAnd; cases r <;> simp

@[simp] theorem imp_iff {p : Prop} [Decidable p] {b : Bool} : imp p b = true ↔ (p → b = true) := by
  unfold imp; split <;> simp_all

theorem place?_some {cs p x y} : place? cs p = some (x, y) ↔ PlaceIn cs p x y := by
  rw [placeIn_iff]
  unfold place?
  cases h : locate cs p with
  | none => simp
  | some v => obtain ⟨a, b⟩ := v; simp [eq_comm]

theorem place?_none {cs p} : place? cs p = none ↔ ∀ x y, ¬ PlaceIn cs p x y := by
  constructor
  · intro h x y hp; rw [place?_some.mpr hp] at h; cases h
  · intro h
    cases k : place? cs p with
    | none => rfl
    | some v => exact absurd (place?_some.mp k) (h v.1 v.2)

theorem exists?_place {segs : Text → List Text} {t p} : exists? segs t p = (place? (segs t) p).isSome := by
  unfold exists? place?; simp

theorem holdsB_iff {S : Segmenter} {g : GapBuffer} {t : Text} : holdsB S g t = true ↔ Holds S g t := by
  unfold holdsB
  simp only [Bool.and_eq_true, decide_eq_true_eq]
  constructor
  · rintro ⟨⟨⟨⟨h1, h2⟩, h3⟩, h4⟩, h5⟩
    refine ⟨_, _, h4, ⟨(g.data.drop g.gapStart).take g.gapLength, ?_, ?_, ?_⟩, h5⟩
    · rw [h2, h3, List.append_assoc, ← List.drop_drop, List.take_append_drop, List.take_append_drop]
    · rw [h2, List.length_take]; omega
    · rw [List.length_take, List.length_drop]; omega
  · rintro ⟨pre, post, h1, ⟨gap, h2, h3, h4⟩, h5⟩
    have e1 : g.data.take g.gapStart = enc pre := by rw [h2, h3, List.append_assoc]; simp
    have e2 : g.data.drop (g.gapStart + g.gapLength) = enc post := by
      rw [h2, h3, h4, ← List.length_append]; simp
    have e3 : g.gapStart + g.gapLength ≤ g.data.length := by rw [h2, h3, h4]; simp
    rw [e1, e2]
    simp [h1, ← h5, e3]

theorem crlfOnly_tail {c d : Char} {t : Text} (h : CrlfOnly (d :: t)) (hn : c ≠ '\n') : CrlfOnly (c :: d :: t) := by
  intro x y e
  cases x with
  | nil => simp at e; exact absurd e.1 hn
  | cons a x =>
    simp only [List.cons_append, List.cons.injEq] at e
    obtain ⟨rfl, e⟩ := e
    have := h x y e
    cases x with
    | nil => simp at this
    | cons b x => rw [List.getLast?_cons_cons]; exact this

theorem crlfOnlyB_sound : ∀ t : Text, crlfOnlyB t = true → CrlfOnly t
  | [], _ => by intro x y e; simp at e
  | [c], h => by
    intro x y e
    cases x with
    | nil =>
      simp only [List.nil_append, List.cons.injEq] at e
      obtain ⟨rfl, _⟩ := e
      simp [crlfOnlyB] at h
    | cons a x => simp at e
  | c :: d :: t, h => by
    rw [crlfOnlyB.eq_3] at h
    split at h
    · cases h
    · split at h
      · rename_i h1 h2
        obtain ⟨rfl, rfl⟩ := h2
        have ih := crlfOnlyB_sound t h
        intro x y e
        cases x with
        | nil => simp at e
        | cons a x =>
          simp only [List.cons_append, List.cons.injEq] at e
          obtain ⟨rfl, e⟩ := e
          cases x with
          | nil => rfl
          | cons b x =>
            simp only [List.cons_append, List.cons.injEq] at e
            obtain ⟨rfl, e⟩ := e
            have := ih x y e
            cases x with
            | nil => simp at this
            | cons b x => rw [List.getLast?_cons_cons, List.getLast?_cons_cons]; exact this
      · rename_i h1 h2
        exact crlfOnly_tail (crlfOnlyB_sound (d :: t) h) h1

end Scribe.Oracle
