import Verif.Proofs.Cursor
import Verif.Spec.Walk
/-! # The cursor walks over the lengths of the lines -/
namespace Scribe
open Spec Cursor
variable {S : Segmenter}

theorem strLines_none {t : Text} (i : Nat) {l : Text} (hl : (splitNl t)[i]? = some l) :
    (strLines t)[i]? = none ↔ i + 1 = (splitNl t).length ∧ l = [] := by
  induction t using lines_induction generalizing i with
  | h1 l' h =>
    rw [splitNl_no_nl h] at hl ⊢
    cases i with
    | succ i => simp at hl
    | zero =>
      simp at hl; subst hl
      unfold strLines
      rw [splitInclusive_no_nl h]
      by_cases he : l' = [] <;> simp [he]
  | h2 l' r h ih =>
    rw [splitNl_append h] at hl ⊢
    unfold strLines at ih ⊢
    rw [splitInclusive_append h]
    cases i with
    | zero =>
      have : 0 < (splitNl r).length := List.length_pos_iff.mpr (splitNl_ne_nil r)
      simp only [List.map_cons, List.getElem?_cons_zero, List.length_cons]
      constructor
      · intro h; cases h
      · rintro ⟨h, -⟩; omega
    | succ i =>
      simp only [List.map_cons, List.getElem?_cons_succ, List.length_cons] at hl ⊢
      rw [ih i hl]
      constructor <;> rintro ⟨h1, h2⟩ <;> exact ⟨by omega, h2⟩

theorem lengths_get (t : Text) (i : Nat) : (lengths S.segs t)[i]? = lineLen S.segs t i := by
  simp [lengths, lineLen]

theorem lengths_length (t : Text) : (lengths S.segs t).length = (splitNl t).length := by simp [lengths]

theorem exists_onPage {t : Text} (hcr : '\r' ∉ t) (p : Position) : exists? S.segs t p = onPage (lengths S.segs t) p := by
  rw [Bool.eq_iff_iff, exists_lineLen (i := p.line) (o := p.offset) hcr, onPage, lengths_get]
  cases lineLen S.segs t p.line <;> simp

theorem onPage_iff {ls : List Nat} {p : Position} : onPage ls p = true ↔ ∃ n, ls[p.line]? = some n ∧ p.offset ≤ n := by
  unfold onPage
  cases ls[p.line]? <;> simp

theorem move_walk {g : GapBuffer} {t : Text} (h : Holds S g t) (hcr : '\r' ∉ t) (c : Cursor) (hc : onPage (lengths S.segs t) c.position = true) (m : Move) :
    move S g c m = .ok (walk1 (lengths S.segs t) c m) ∧ onPage (lengths S.segs t) (walk1 (lengths S.segs t) c m).position = true := by
  obtain ⟨n, hn, hle⟩ := onPage_iff.mp hc
  have hget : ∀ i k, (lengths S.segs t)[i]? = some k → (lengths S.segs t).getD i 0 = k := by
    intro i k hk; rw [List.getD_eq_getElem?_getD, hk]; rfl
  have hpage : ∀ l o k, (lengths S.segs t)[l]? = some k → o ≤ k → exists? S.segs t ⟨l, o⟩ = true := by
    intro l o k h1 h2; rw [exists_onPage hcr, onPage_iff]; exact ⟨k, h1, h2⟩
  have hline : ∀ l, moveToLine S g c l = .ok (toLine (lengths S.segs t) c l) ∧ onPage (lengths S.segs t) (toLine (lengths S.segs t) c l).position = true := by
    intro l
    rw [moveToLine_holds h hcr, ← lengths_get, toLine]
    cases hk : (lengths S.segs t)[l]? with
    | none => exact ⟨rfl, hc⟩
    | some k => exact ⟨rfl, onPage_iff.mpr ⟨k, hk, Nat.min_le_right _ _⟩⟩
  have hlt : c.position.line < (lengths S.segs t).length := (List.getElem?_eq_some_iff.mp hn).1
  have hcol : ∀ l o k, (lengths S.segs t)[l]? = some k → o ≤ k → moveTo S g c ⟨l, o⟩ = .ok (true, atColumn l o) ∧
      onPage (lengths S.segs t) (atColumn l o).position = true := by
    intro l o k h1 h2
    rw [moveTo_holds h, if_pos (hpage l o k h1 h2)]
    exact ⟨rfl, onPage_iff.mpr ⟨k, h1, h2⟩⟩
  cases m with
  | «to» p =>
    simp only [move, walk1]
    rw [moveTo_holds h, exists_onPage hcr]
    by_cases hp : onPage (lengths S.segs t) p = true
    · rw [if_pos hp, if_pos hp]; exact ⟨rfl, hp⟩
    · rw [if_neg hp, if_neg hp]; exact ⟨rfl, hc⟩
  | up =>
    simp only [move, moveUp, walk1]
    by_cases h0 : c.position.line = 0
    · rw [if_pos h0, if_pos h0]; exact ⟨rfl, hc⟩
    · rw [if_neg h0, if_neg h0, subU, if_pos (by omega), Except.ok_bind']
      exact hline _
  | down => exact hline _
  | left =>
    simp only [move, moveLeft, walk1]
    by_cases h0 : c.position.offset = 0
    · rw [if_pos h0, if_pos h0]; exact ⟨rfl, hc⟩
    · rw [if_neg h0, if_neg h0, subU, if_pos (by omega), Except.ok_bind']
      obtain ⟨h1, h2⟩ := hcol _ (c.position.offset - 1) n hn (by omega)
      rw [h1]; exact ⟨rfl, h2⟩
  | right =>
    simp only [move, moveRight, walk1]
    rw [hget _ _ hn]
    by_cases h0 : c.position.offset < n
    · rw [if_pos h0]
      obtain ⟨h1, h2⟩ := hcol _ (c.position.offset + 1) n hn (by omega)
      rw [h1]; exact ⟨rfl, h2⟩
    · rw [if_neg h0, moveTo_holds h, if_neg]
      · exact ⟨rfl, hc⟩
      · rw [exists_onPage hcr, onPage_iff]
        rintro ⟨k, h1, h2⟩
        rw [show (⟨c.position.line, c.position.offset + 1⟩ : Position).line = c.position.line from rfl, hn] at h1
        cases h1
        exact h0 h2
  | startOfLine =>
    simp only [move, moveToStartOfLine, walk1]
    obtain ⟨h1, h2⟩ := hcol _ 0 n hn (by omega)
    rw [h1]; exact ⟨rfl, h2⟩
  | endOfLine =>
    simp only [move, moveToEndOfLine, walk1, h.toStr, Except.ok_bind']
    rw [hget _ _ hn]
    have hn' := hn
    rw [lengths_get, lineLen, Option.map_eq_some_iff] at hn'
    obtain ⟨l, hl, hlen⟩ := hn'
    have hnone := strLines_none c.position.line hl
    rcases strLines_getElem hcr _ hl with h1 | ⟨h1, rfl⟩
    · rw [h1] at hnone
      rw [h1, if_neg]
      · obtain ⟨h1, h2⟩ := hcol _ n n hn (Nat.le_refl _)
        simp only [hlen]
        rw [h1]; exact ⟨rfl, h2⟩
      · rintro ⟨k1, k2⟩
        have : l = [] := by
          have := S.join l
          rw [List.eq_nil_of_length_eq_zero (hlen.trans k2)] at this
          exact this.symm
        exact absurd (hnone.mpr ⟨by rwa [lengths_length] at k1, this⟩) (by simp)
    · rw [h1, if_pos]
      · exact ⟨rfl, hc⟩
      · rw [lengths_length]
        refine ⟨(hnone.mp h1).1, ?_⟩
        rw [← hlen]; simp
  | firstLine =>
    simp only [move, moveToFirstLine, walk1, h.toStr, Except.ok_bind']
    obtain ⟨k, hk⟩ : ∃ k, (lengths S.segs t)[0]? = some k := ⟨_, List.getElem?_eq_getElem (Nat.lt_of_le_of_lt (Nat.zero_le _) hlt)⟩
    have e : ((strLines t)[0]?.map fun l => (S.segs l).length).getD 0 = k := lineEnd_eq hcr (by rw [← lengths_get]; exact hk)
    rw [e, hget _ _ hk, show (if k < c.sticky then (⟨0, k⟩ : Position) else ⟨0, c.sticky⟩) = ⟨0, min c.sticky k⟩ by split <;> congr 1 <;> omega]
    obtain ⟨h1, h2⟩ := hcol 0 (min c.sticky k) k hk (Nat.min_le_right _ _)
    rw [h1]; exact ⟨rfl, h2⟩
  | lastLine =>
    simp only [move, moveToLastLine, walk1, h.toStr, Except.ok_bind']
    obtain ⟨k1, k2⟩ := endPos_text (S := S) hcr
    rw [← lengths_get] at k2
    rw [← lengths_length (S := S)] at k1
    have e : lastLine (S.segs t) (0, 0) = ((endPos (S.segs t)).line, (endPos (S.segs t)).offset) := by
      have := lastLine_eq (S.segs t) ⟨0, 0⟩
      rw [← endPos_eq_foldl] at this; exact this
    rw [e, show (lengths S.segs t).length - 1 = (endPos (S.segs t)).line by omega, hget _ _ k2]
    simp only
    generalize (endPos (S.segs t)).line = l at *
    generalize (endPos (S.segs t)).offset = k at *
    rw [show (if k < c.sticky then (⟨l, k⟩ : Position) else ⟨l, c.sticky⟩) = ⟨l, min c.sticky k⟩ by split <;> congr 1 <;> omega]
    obtain ⟨h1, h2⟩ := hcol l (min c.sticky k) k k2 (Nat.min_le_right _ _)
    rw [h1]; exact ⟨rfl, h2⟩

/-! ## Routes -/

theorem walk_append (ls : List Nat) (c : Cursor) (ms ms' : List Move) : walk ls c (ms ++ ms') = walk ls (walk ls c ms) ms' := List.foldl_append ..

/-- Enough times up: the first line, at a place of it. -/
theorem walk_ups {ls : List Nat} {n0 : Nat} (h0 : ls[0]? = some n0) (k : Nat) : ∀ c : Cursor, onPage ls c.position = true → c.position.line ≤ k →
    ∃ o s, o ≤ n0 ∧ walk ls c (List.replicate k .up) = ⟨⟨0, o⟩, s⟩ := by
  have stay : ∀ k (c : Cursor), c.position.line = 0 → walk ls c (List.replicate k .up) = c := by
    intro k
    induction k with
    | zero => intro c _; rfl
    | succ k ih =>
      intro c hc
      rw [List.replicate_succ]
      show walk ls (walk1 ls c .up) _ = c
      rw [show walk1 ls c .up = c from if_pos hc]
      exact ih c hc
  induction k with
  | zero =>
    intro c hc hk
    obtain ⟨n, h1, h2⟩ := onPage_iff.mp hc
    have hl : c.position.line = 0 := by omega
    rw [hl, h0] at h1; cases h1
    refine ⟨c.position.offset, c.sticky, h2, ?_⟩
    rw [stay 0 c hl, ← hl]
  | succ k ih =>
    intro c hc hk
    by_cases hl : c.position.line = 0
    · rw [stay _ c hl]
      obtain ⟨n, h1, h2⟩ := onPage_iff.mp hc
      rw [hl, h0] at h1; cases h1
      exact ⟨c.position.offset, c.sticky, h2, by rw [← hl]⟩
    · obtain ⟨n, h1, h2⟩ := onPage_iff.mp hc
      have hlt : c.position.line - 1 < ls.length := by
        have := (List.getElem?_eq_some_iff.mp h1).1; omega
      have e : walk1 ls c .up = ⟨⟨c.position.line - 1, min c.sticky ls[c.position.line - 1]⟩, c.sticky⟩ := by
        simp only [walk1, if_neg hl, toLine, List.getElem?_eq_getElem hlt]
      rw [List.replicate_succ]
      show ∃ o s, o ≤ n0 ∧ walk ls (walk1 ls c .up) _ = _
      rw [e]
      refine ih _ (onPage_iff.mpr ⟨_, List.getElem?_eq_getElem hlt, Nat.min_le_right _ _⟩) ?_
      show c.position.line - 1 ≤ k
      omega

/-- Enough times left. -/
theorem walk_lefts (ls : List Nat) (l : Nat) (k : Nat) : ∀ (o s : Nat), o ≤ k → (walk ls ⟨⟨l, o⟩, s⟩ (List.replicate k .left)).position = ⟨l, 0⟩ := by
  induction k with
  | zero => intro o s h; obtain rfl : o = 0 := by omega
            rfl
  | succ k ih =>
    intro o s h
    rw [List.replicate_succ]
    show (walk ls (walk1 ls ⟨⟨l, o⟩, s⟩ .left) _).position = _
    simp only [walk1]
    by_cases h0 : o = 0
    · rw [if_pos h0]; exact ih o s (by omega)
    · rw [if_neg h0]; exact ih _ _ (by omega)

/-- Down from line to line. -/
theorem walk_downs {ls : List Nat} (k : Nat) : ∀ c : Cursor, onPage ls c.position = true → c.position.line + k < ls.length →
    ∃ o s, walk ls c (List.replicate k .down) = ⟨⟨c.position.line + k, o⟩, s⟩ ∧ onPage ls ⟨c.position.line + k, o⟩ = true := by
  induction k with
  | zero => intro c hc _; exact ⟨c.position.offset, c.sticky, rfl, hc⟩
  | succ k ih =>
    intro c hc hk
    have hlt : c.position.line + 1 < ls.length := by omega
    have e : walk1 ls c .down = ⟨⟨c.position.line + 1, min c.sticky ls[c.position.line + 1]⟩, c.sticky⟩ := by
      simp only [walk1, toLine, List.getElem?_eq_getElem hlt]
    obtain ⟨o, s, h1, h2⟩ := ih ⟨⟨c.position.line + 1, min c.sticky ls[c.position.line + 1]⟩, c.sticky⟩
      (onPage_iff.mpr ⟨_, List.getElem?_eq_getElem hlt, Nat.min_le_right _ _⟩) (by show c.position.line + 1 + k < _; omega)
    rw [show (⟨⟨c.position.line + 1, min c.sticky ls[c.position.line + 1]⟩, c.sticky⟩ : Cursor).position.line + k = c.position.line + (k + 1) by
      show c.position.line + 1 + k = _; omega] at h1 h2
    refine ⟨o, s, ?_, h2⟩
    rw [List.replicate_succ]
    show walk ls (walk1 ls c .down) _ = _
    rw [e]; exact h1

/-- Right within a line. -/
theorem walk_rights {ls : List Nat} {l n : Nat} (hn : ls[l]? = some n) (k : Nat) : ∀ o s, o + k ≤ n → (walk ls ⟨⟨l, o⟩, s⟩ (List.replicate k .right)).position = ⟨l, o + k⟩ := by
  induction k with
  | zero => intro o s _; rfl
  | succ k ih =>
    intro o s h
    have e : walk1 ls ⟨⟨l, o⟩, s⟩ .right = ⟨⟨l, o + 1⟩, o + 1⟩ := by
      simp only [walk1, List.getD_eq_getElem?_getD, hn, Option.getD_some]
      rw [if_pos (by omega)]; rfl
    rw [List.replicate_succ]
    show (walk ls (walk1 ls ⟨⟨l, o⟩, s⟩ .right) _).position = _
    rw [e, ih _ _ (by omega)]
    congr 1; omega

theorem walk_route {ls : List Nat} {c : Cursor} (hc : onPage ls c.position = true) {p : Position} (hp : onPage ls p = true) {ups lefts : Nat}
    (hu : c.position.line ≤ ups) (hl : ls.getD p.line 0 ≤ lefts) : (walk ls c (route ups lefts p)).position = p := by
  obtain ⟨n, h1, h2⟩ := onPage_iff.mp hp
  have hlt := (List.getElem?_eq_some_iff.mp h1).1
  have h0 : ls[0]? = some ls[0] := List.getElem?_eq_getElem (by omega)
  obtain ⟨o, s, k1, k2⟩ := walk_ups h0 ups c hc hu
  obtain ⟨o', s', k3, k4⟩ := walk_downs (ls := ls) p.line ⟨⟨0, o⟩, s⟩ (onPage_iff.mpr ⟨_, h0, k1⟩) (by show 0 + p.line < _; omega)
  rw [show (⟨⟨0, o⟩, s⟩ : Cursor).position.line + p.line = p.line from Nat.zero_add _] at k3 k4
  obtain ⟨n', k5, k6⟩ := onPage_iff.mp k4
  rw [show (⟨p.line, o'⟩ : Position).line = p.line from rfl, h1] at k5
  cases k5
  rw [List.getD_eq_getElem?_getD, h1] at hl
  have k7 := walk_lefts ls p.line lefts o' s' (Nat.le_trans k6 hl)
  rw [route, walk_append, walk_append, walk_append, k2, k3]
  generalize walk ls ⟨⟨p.line, o'⟩, s'⟩ (List.replicate lefts .left) = c' at *
  obtain ⟨q, s''⟩ := c'
  cases k7
  rw [walk_rights h1 p.offset 0 s'' (by omega)]
  simp

end Scribe
