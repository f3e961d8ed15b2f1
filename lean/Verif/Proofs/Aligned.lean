import Verif.Proofs.GapBuffer
/-! Level 2: gap buffers whose gap is on a cluster boundary implement the text specification. -/
namespace Scribe
open Spec

namespace GapBuffer
variable {S : Segmenter} {A : Alloc}

@[simp] theorem _root_.Scribe.Segmenter.segs_nil (S : Segmenter) : S.segs [] = [] := by
  have h := S.join []
  cases hs : S.segs [] with
  | nil => rfl
  | cons c cs =>
    have hc := S.nonempty [] c (by rw [hs]; simp)
    rw [hs] at h; simp at h; exact absurd h.1 hc

theorem _root_.Scribe.Segmenter.cut_left (S : Segmenter) {t a b} (h : S.segs t = a ++ b) : S.segs a.flatten = a := (S.cut _ _ _ h).1
theorem _root_.Scribe.Segmenter.cut_right (S : Segmenter) {t a b} (h : S.segs t = a ++ b) : S.segs b.flatten = b := (S.cut _ _ _ h).2

theorem _root_.Scribe.Segmenter.segs_eq_nil (S : Segmenter) {t} : S.segs t = [] ↔ t = [] := by
  constructor
  · intro h; rw [← S.join t, h]; rfl
  · rintro rfl; exact S.segs_nil

theorem holds_new (k : Nat) (t : Text) : Holds S (GapBuffer.new A k t) t :=
  ⟨t, [], by simp, new_rep k t, by simp⟩

theorem _root_.Scribe.Holds.toStr {g t} (h : Holds S g t) : GapBuffer.toStr g = .ok t := by
  obtain ⟨pre, post, rfl, hr, _⟩ := h; exact hr.toStr

/-- A representation that happens to be aligned. -/
theorem _root_.Scribe.Rep.holds {g pre post} (h : Rep g pre post) (ha : S.segs (pre ++ post) = S.segs pre ++ S.segs post) :
    Holds S g (pre ++ post) := ⟨pre, post, rfl, h, ha⟩

theorem _root_.Scribe.Holds.inBounds {g t} (h : Holds S g t) (p : Position) :
    GapBuffer.inBounds S g p = .ok (exists? S.segs t p) := by
  obtain ⟨pre, post, rfl, hr, ha⟩ := h
  rw [inBounds_rep hr, exists?, ha]

theorem _root_.Scribe.Holds.read {g t} (h : Holds S g t) (r : Range) (hr : AtOrBefore r.start r.stop) :
    GapBuffer.read S g r = .ok (readRange S.segs t r.start r.stop) := by
  obtain ⟨pre, post, rfl, hr', ha⟩ := h
  rw [read_rep hr' r hr, readRange, ha]
  rfl

theorem _root_.Scribe.Holds.insert {g t} (h : Holds S g t) (s : Text) (p : Position) :
    ∃ g', GapBuffer.insert S A g s p = .ok g' ∧ GapBuffer.toStr g' = .ok (insertAt S.segs t s p) ∧
      (CleanInsert S.segs t s p → Holds S g' (insertAt S.segs t s p)) := by
  obtain ⟨pre, post, rfl, hr, ha⟩ := h
  obtain ⟨g', pre', post', hi, hc, hm⟩ := insert_rep (S := S) (A := A) hr s p
  have key : S.segs pre' ++ S.segs post' = S.segs (pre ++ post) ∧ pre' ++ post' = pre ++ post := by
    rcases hc with ⟨_, rfl, rfl⟩ | ⟨_, rfl, rfl⟩
    · exact ⟨ha.symm, rfl⟩
    · simp
  rw [key.1] at hm
  refine ⟨g', hi, ?_⟩
  cases hl : locate (S.segs (pre ++ post)) p with
  | none =>
    rw [hl] at hm
    simp only at hm
    have e : insertAt S.segs (pre ++ post) s p = pre' ++ post' := by unfold insertAt; rw [hl, key.2]
    rw [e]
    exact ⟨hm.toStr, fun _ => hm.holds (by rw [key.2, key.1])⟩
  | some x =>
    obtain ⟨a, b⟩ := x
    rw [hl] at hm
    simp only at hm
    obtain ⟨hab, hp⟩ := locate_eq_some.mp hl
    have e : insertAt S.segs (pre ++ post) s p = a.flatten ++ s ++ b.flatten := by unfold insertAt; rw [hl]
    rw [e]
    refine ⟨hm.toStr, fun hcl => hm.holds ?_⟩
    have h1 := hcl a b hl
    have h2 := S.cut_left h1
    rw [List.flatten_append, S.join] at h2
    rw [h1, h2, S.cut_right hab]

theorem afterEnd_suffix {cs : List Text} {q : Position} : ∃ c, cs = c ++ afterEnd cs q := by
  unfold afterEnd
  cases h : locate cs q with
  | some x => exact ⟨x.1, (locate_eq_some.mp (show locate cs q = some (x.1, x.2) from h)).1⟩
  | none =>
    cases h2 : locate cs ⟨q.line + 1, 0⟩ with
    | some x => exact ⟨x.1, (locate_eq_some.mp (show locate cs _ = some (x.1, x.2) from h2)).1⟩
    | none => exact ⟨cs, by simp⟩

theorem _root_.Scribe.Holds.delete {g t} (h : Holds S g t) (r : Range) (hr : AtOrBefore r.start r.stop) :
    ∃ g', GapBuffer.delete S g r = .ok g' ∧ GapBuffer.toStr g' = .ok (deleteRange S.segs t r.start r.stop) ∧
      (CleanDelete S.segs t r.start r.stop → Holds S g' (deleteRange S.segs t r.start r.stop)) := by
  obtain ⟨pre, post, ht, hrep, ha⟩ := id h
  obtain ⟨g', hd, hm⟩ := delete_rep (S := S) hrep r hr
  rw [← ha] at hm
  refine ⟨g', hd, ?_⟩
  cases hl : locate (S.segs t) r.start with
  | none =>
    rw [hl] at hm
    simp only at hm
    subst hm
    have e : deleteRange S.segs t r.start r.stop = t := by unfold deleteRange; rw [hl]
    rw [e]
    exact ⟨h.toStr, fun _ => h⟩
  | some x =>
    obtain ⟨a, b⟩ := x
    obtain ⟨hab, hp⟩ := locate_eq_some.mp hl
    rw [hl] at hm
    simp only at hm
    rw [S.cut_left hab, S.cut_right hab, ← hab] at hm
    have e : deleteRange S.segs t r.start r.stop = a.flatten ++ (afterEnd (S.segs t) r.stop).flatten := by
      unfold deleteRange; rw [hl]
    have hrep' : Rep g' a.flatten (afterEnd (S.segs t) r.stop).flatten := by
      unfold afterEnd
      cases h2 : locate (S.segs t) r.stop with
      | some x => rw [h2] at hm; exact hm.1
      | none =>
        rw [h2] at hm
        cases h3 : locate (S.segs t) ⟨r.stop.line + 1, 0⟩ with
        | some x => rw [h3] at hm; exact hm.1
        | none => rw [h3] at hm; exact hm
    rw [e]
    refine ⟨hrep'.toStr, fun hcl => hrep'.holds ?_⟩
    obtain ⟨c, hc⟩ := afterEnd_suffix (cs := S.segs t) (q := r.stop)
    rw [hcl a b hl, S.cut_left hab, S.cut_right hc]

end GapBuffer
end Scribe
