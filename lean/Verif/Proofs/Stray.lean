import Verif.Proofs.Walk
import Verif.Spec.Stray
/-! # The keys take any cursor over the lengths of the lines -/
namespace Scribe
open Spec Cursor
variable {S : Segmenter}

theorem lengths_pos (t : Text) : 0 < (lengths S.segs t).length := by
  rw [lengths_length]; exact List.length_pos_iff.mpr (splitNl_ne_nil t)

theorem moveTo_goTo {g : GapBuffer} {t : Text} (h : Holds S g t) (hcr : '\r' ∉ t) (c : Cursor) (p : Position) :
    moveTo S g c p = .ok (onPage (lengths S.segs t) p, goTo (lengths S.segs t) c p) := by
  rw [moveTo_holds h, exists_onPage hcr, goTo]
  cases onPage (lengths S.segs t) p <;> rfl

theorem onPage_home (t : Text) (k : Nat) :
    onPage (lengths S.segs t) (⟨⟨0, 0⟩, k⟩ : Cursor).position = true := by
  rw [onPage_iff]
  exact ⟨_, List.getElem?_eq_getElem (lengths_pos t), Nat.zero_le _⟩

theorem move_stray {g : GapBuffer} {t : Text} (h : Holds S g t) (hcr : '\r' ∉ t) (c : Cursor) (m : Move) :
    move S g c m = .ok (stray1 (lengths S.segs t) c m) := by
  have hline : ∀ l, moveToLine S g c l = .ok (toLine (lengths S.segs t) c l) := by
    intro l
    rw [moveToLine_holds h hcr, ← lengths_get, toLine]
    cases (lengths S.segs t)[l]? <;> rfl
  cases m with
  | «to» p => simp only [move, stray1, moveTo_goTo h hcr]; rfl
  | up =>
    simp only [move, moveUp, stray1]
    by_cases h0 : c.position.line = 0
    · rw [if_pos h0, if_pos h0]; rfl
    · rw [if_neg h0, if_neg h0, subU, if_pos (by omega), Except.ok_bind']
      exact hline _
  | down => exact hline _
  | left =>
    simp only [move, moveLeft, stray1]
    by_cases h0 : c.position.offset = 0
    · rw [if_pos h0, if_pos h0]; rfl
    · rw [if_neg h0, if_neg h0, subU, if_pos (by omega), Except.ok_bind', moveTo_goTo h hcr]; rfl
  | right => simp only [move, moveRight, stray1, moveTo_goTo h hcr]; rfl
  | startOfLine => simp only [move, moveToStartOfLine, stray1, moveTo_goTo h hcr]; rfl
  | endOfLine =>
    simp only [move, moveToEndOfLine, stray1, h.toStr, Except.ok_bind']
    cases hl : (splitNl t)[c.position.line]? with
    | none =>
      have hge : (lengths S.segs t).length ≤ c.position.line := by rw [lengths_length]; exact List.getElem?_eq_none_iff.mp hl
      have hoff : goTo (lengths S.segs t) c ⟨c.position.line, (lengths S.segs t).getD c.position.line 0⟩ = c := by
        rw [goTo, if_neg]
        rw [onPage_iff]
        rintro ⟨n, h1, -⟩
        have := (List.getElem?_eq_some_iff.mp h1).1
        exact absurd this (by show ¬ c.position.line < _; omega)
      rw [if_neg (by omega), hoff]
      cases hs : (strLines t)[c.position.line]? with
      | none => rfl
      | some l =>
        simp only [moveTo_goTo h hcr, Except.ok_bind']
        rw [goTo, if_neg]
        · rfl
        · rw [onPage_iff]
          rintro ⟨n, h1, -⟩
          have := (List.getElem?_eq_some_iff.mp h1).1
          exact absurd this (by show ¬ c.position.line < _; omega)
    | some l =>
      have hn : (lengths S.segs t)[c.position.line]? = some (S.segs l).length := by rw [lengths_get, lineLen, hl]; rfl
      have hd : (lengths S.segs t).getD c.position.line 0 = (S.segs l).length := by rw [List.getD_eq_getElem?_getD, hn]; rfl
      have hnone := strLines_none c.position.line hl
      rw [hd]
      rcases strLines_getElem hcr _ hl with h1 | ⟨h1, rfl⟩
      · rw [h1] at hnone
        rw [h1, if_neg]
        · simp only [moveTo_goTo h hcr]; rfl
        · rintro ⟨k1, k2⟩
          have : l = [] := by
            have := S.join l
            rw [List.eq_nil_of_length_eq_zero k2] at this
            exact this.symm
          exact absurd (hnone.mpr ⟨by rwa [lengths_length] at k1, this⟩) (by simp)
      · rw [h1, if_pos]
        · rfl
        · rw [lengths_length]
          exact ⟨(hnone.mp h1).1, by simp⟩
  | firstLine =>
    simp only [move, moveToFirstLine, stray1, h.toStr, Except.ok_bind']
    obtain ⟨k, hk⟩ : ∃ k, (lengths S.segs t)[0]? = some k := ⟨_, List.getElem?_eq_getElem (lengths_pos t)⟩
    have e : ((strLines t)[0]?.map fun l => (S.segs l).length).getD 0 = k := lineEnd_eq hcr (by rw [← lengths_get]; exact hk)
    rw [e, List.getD_eq_getElem?_getD, hk, show (if k < c.sticky then (⟨0, k⟩ : Position) else ⟨0, c.sticky⟩) = ⟨0, min c.sticky k⟩ by split <;> congr 1 <;> omega,
      moveTo_goTo h hcr, goTo, if_pos (onPage_iff.mpr ⟨k, hk, Nat.min_le_right _ _⟩)]
    rfl
  | lastLine =>
    simp only [move, moveToLastLine, stray1, h.toStr, Except.ok_bind']
    obtain ⟨k1, k2⟩ := endPos_text (S := S) hcr
    rw [← lengths_get] at k2
    rw [← lengths_length (S := S)] at k1
    have e : lastLine (S.segs t) (0, 0) = ((endPos (S.segs t)).line, (endPos (S.segs t)).offset) := by
      have := lastLine_eq (S.segs t) ⟨0, 0⟩
      rw [← endPos_eq_foldl] at this; exact this
    rw [e, show (lengths S.segs t).length - 1 = (endPos (S.segs t)).line by omega, List.getD_eq_getElem?_getD, k2]
    simp only
    generalize (endPos (S.segs t)).line = l at *
    generalize (endPos (S.segs t)).offset = k at *
    rw [show (if k < c.sticky then (⟨l, k⟩ : Position) else ⟨l, c.sticky⟩) = ⟨l, min c.sticky k⟩ by split <;> congr 1 <;> omega,
      moveTo_goTo h hcr, goTo, if_pos (onPage_iff.mpr ⟨k, k2, Nat.min_le_right _ _⟩)]
    rfl

/-- From off the page a key either leads back or does nothing. -/
theorem stray1_rescues {ls : List Nat} (hls : 0 < ls.length) {c : Cursor} (hc : onPage ls c.position = false) (m : Move) :
    (rescues ls c.position m = true → onPage ls (stray1 ls c m).position = true) ∧ (rescues ls c.position m = false → stray1 ls c m = c) := by
  have hgo : ∀ p, (onPage ls p = true → onPage ls (goTo ls c p).position = true) ∧ (onPage ls p = false → goTo ls c p = c) := by
    intro p
    constructor
    · intro hp; rw [goTo, if_pos hp]; exact hp
    · intro hp; rw [goTo, hp]; rfl
  have hto : ∀ l, (l < ls.length → onPage ls (toLine ls c l).position = true) ∧ (ls.length ≤ l → toLine ls c l = c) := by
    intro l
    constructor
    · intro hl
      rw [toLine, List.getElem?_eq_getElem hl]
      exact onPage_iff.mpr ⟨_, List.getElem?_eq_getElem hl, Nat.min_le_right _ _⟩
    · intro hl; rw [toLine, List.getElem?_eq_none hl]
  have hoff : ∀ n, ls[c.position.line]? = some n → n < c.position.offset := by
    intro n hn
    rw [Bool.eq_false_iff, Ne, onPage_iff] at hc
    exact Nat.lt_of_not_le fun h => hc ⟨n, hn, h⟩
  have hpage : ∀ o, onPage ls ⟨c.position.line, o⟩ = true ↔ ∃ n, ls[c.position.line]? = some n ∧ o ≤ n := fun o => onPage_iff
  have hlast : ∀ l, l < ls.length → onPage ls (atColumn l (min c.sticky (ls.getD l 0))).position = true := by
    intro l hl
    refine onPage_iff.mpr ⟨ls[l], List.getElem?_eq_getElem hl, ?_⟩
    rw [List.getD_eq_getElem?_getD, List.getElem?_eq_getElem hl]
    exact Nat.min_le_right _ _
  cases m with
  | «to» p => exact hgo p
  | up =>
    simp only [rescues, stray1, decide_eq_true_eq, decide_eq_false_iff_not]
    constructor
    · rintro ⟨h1, h2⟩
      rw [if_neg (by omega)]; exact (hto _).1 (by omega)
    · intro h
      by_cases h0 : c.position.line = 0
      · rw [if_pos h0]
      · rw [if_neg h0]; exact (hto _).2 (by omega)
  | down =>
    simp only [rescues, stray1, decide_eq_true_eq, decide_eq_false_iff_not]
    exact ⟨(hto _).1, fun h => (hto _).2 (by omega)⟩
  | left =>
    simp only [rescues, stray1, decide_eq_true_eq, decide_eq_false_iff_not, Option.map_eq_some_iff]
    constructor
    · rintro ⟨n, h1, h2⟩
      rw [if_neg (by omega)]
      exact (hgo _).1 ((hpage _).mpr ⟨n, h1, by omega⟩)
    · intro h
      by_cases h0 : c.position.offset = 0
      · rw [if_pos h0]
      · rw [if_neg h0]
        refine (hgo _).2 (Bool.eq_false_iff.mpr fun hp => ?_)
        obtain ⟨n, h1, h2⟩ := (hpage _).mp hp
        exact h ⟨n, h1, by have := hoff n h1; omega⟩
  | right =>
    simp only [rescues, stray1]
    refine ⟨fun h => by simp at h, fun _ => (hgo _).2 (Bool.eq_false_iff.mpr fun hp => ?_)⟩
    obtain ⟨n, h1, h2⟩ := (hpage _).mp hp
    have := hoff n h1; omega
  | startOfLine =>
    simp only [rescues, stray1, decide_eq_true_eq, decide_eq_false_iff_not]
    constructor
    · intro h
      exact (hgo _).1 ((hpage _).mpr ⟨_, List.getElem?_eq_getElem h, Nat.zero_le _⟩)
    · intro h
      refine (hgo _).2 (Bool.eq_false_iff.mpr fun hp => ?_)
      obtain ⟨n, h1, h2⟩ := (hpage _).mp hp
      exact h (List.getElem?_eq_some_iff.mp h1).1
  | endOfLine =>
    simp only [rescues, stray1, decide_eq_true_eq, decide_eq_false_iff_not]
    constructor
    · rintro ⟨h, h'⟩
      have e := List.getElem?_eq_getElem h
      have e' : ls.getD c.position.line 0 = ls[c.position.line] := by rw [List.getD_eq_getElem?_getD, e]; rfl
      rw [e'] at *
      rw [if_neg (by rintro ⟨k1, k2⟩; exact h' ⟨k1, by rw [e, k2]⟩)]
      exact (hgo _).1 ((hpage _).mpr ⟨_, e, Nat.le_refl _⟩)
    · intro h
      by_cases hl : c.position.line < ls.length
      · have e := List.getElem?_eq_getElem hl
        rw [if_pos]
        by_contra hn
        refine h ⟨hl, fun ⟨k1, k2⟩ => hn ⟨k1, ?_⟩⟩
        rw [List.getD_eq_getElem?_getD, k2]; rfl
      · split
        · rfl
        · refine (hgo _).2 (Bool.eq_false_iff.mpr fun hp => ?_)
          obtain ⟨n, h1, h2⟩ := (hpage _).mp hp
          exact hl (List.getElem?_eq_some_iff.mp h1).1
  | firstLine => exact ⟨fun _ => hlast 0 hls, fun h => by simp [rescues] at h⟩
  | lastLine => exact ⟨fun _ => hlast _ (by omega), fun h => by simp [rescues] at h⟩

/-- Any number of keys that do not lead back. -/
theorem stray_stuck {ls : List Nat} (hls : 0 < ls.length) {c : Cursor} (hc : onPage ls c.position = false) (ms : List Move)
    (h : ∀ m ∈ ms, rescues ls c.position m = false) : stray ls c ms = c := by
  induction ms with
  | nil => rfl
  | cons m ms ih =>
    show stray ls (stray1 ls c m) ms = c
    rw [(stray1_rescues hls hc m).2 (h m (by simp))]
    exact ih fun m hm => h m (by simp [hm])

end Scribe
