import Verif.Proofs.Cursor
import Verif.Props.GapBuffer
/-!
# Properties C26–C29: cursor movements
-/
namespace Scribe.Props
open Spec Cursor

/-- **C26.** On every reachable gap buffer `move_to` succeeds exactly when `in_bounds` says so, moves exactly
to the given position (with that column as the new sticky column), and otherwise changes nothing. -/
theorem C26_move_to (S : Segmenter) (A : Alloc) (g : GapBuffer) (c : Cursor) (p : Position) (h : Reachable S A g) :
    ∃ b, g.inBounds S p = .ok b ∧
      moveTo S g c p = .ok (b, if b then { position := p, sticky := p.offset } else c) := by
  obtain ⟨pre, post, hr⟩ := reachable_rep h
  refine ⟨_, GapBuffer.inBounds_rep hr p, ?_⟩
  rw [moveTo_rep hr, bounds]
  split <;> simp_all

/-- C26 in terms of the text: `move_to` succeeds exactly when the position names a place in it. -/
theorem C26_move_to_text (S : Segmenter) (g : GapBuffer) (t : Text) (c : Cursor) (p : Position) (h : Holds S g t) :
    ((∃ x y, PlaceIn (S.segs t) p x y) → moveTo S g c p = .ok (true, ⟨p, p.offset⟩)) ∧
    ((∀ x y, ¬ PlaceIn (S.segs t) p x y) → moveTo S g c p = .ok (false, c)) := by
  rw [moveTo_holds h]
  constructor
  · rintro ⟨x, y, hp⟩
    obtain ⟨a, b, hl, _⟩ := placeIn_iff.mp hp
    rw [exists?, hl]; rfl
  · intro hn
    have : locate (S.segs t) p = none := by
      rw [locate_eq_none]; intro a b hab he
      exact hn _ _ ⟨a, b, hab, rfl, rfl, he⟩
    rw [exists?, this]; rfl

/-- C26: no sequence of movements panics, and none takes an in-bounds cursor out of bounds — for any text,
including carriage returns, and any gap position. -/
theorem C26_moves_stay_in_bounds (S : Segmenter) (A : Alloc) (g : GapBuffer) (c : Cursor) (ms : List Move)
    (h : Reachable S A g) :
    ∃ c', moves S g c ms = .ok c' ∧ (g.inBounds S c.position = .ok true → g.inBounds S c'.position = .ok true) := by
  obtain ⟨pre, post, hr⟩ := reachable_rep h
  obtain ⟨c', h1, h2⟩ := moves_rep (S := S) hr c ms
  refine ⟨c', h1, fun hb => ?_⟩
  rcases h2 with h2 | h2
  · rw [h2]; exact hb
  · rw [GapBuffer.inBounds_rep hr]; exact congrArg _ h2

example : moveTo Demo.seg demoG ⟨⟨0, 0⟩, 0⟩ ⟨1, 2⟩ = .ok (true, ⟨⟨1, 2⟩, 2⟩) := by decide +kernel
example : moveTo Demo.seg demoG ⟨⟨0, 0⟩, 0⟩ ⟨0, 2⟩ = .ok (false, ⟨⟨0, 0⟩, 0⟩) := by decide +kernel
example : moves Demo.seg demoG ⟨⟨0, 1⟩, 1⟩ [.down, .right, .right, .up, .down, .left, .lastLine, .endOfLine] = .ok ⟨⟨1, 3⟩, 3⟩ := by
  decide +kernel

theorem vertical_move (S : Segmenter) (g : GapBuffer) (t : Text) (h : Holds S g t) (hcr : '\r' ∉ t) (l n k : Nat) (m : Move)
    (hm : Vertical m) (hn : lineLen S.segs t l = some n) :
    ∃ n', lineLen S.segs t (vertical t l m) = some n' ∧
      move S g ⟨⟨l, min k n⟩, k⟩ m = .ok ⟨⟨vertical t l m, min k n'⟩, k⟩ := by
  have hl : l < (splitNl t).length := by
    unfold lineLen at hn
    rw [Option.map_eq_some_iff] at hn
    obtain ⟨x, hx, _⟩ := hn
    exact (List.getElem?_eq_some_iff.mp hx).1
  have some_of_lt : ∀ i, i < (splitNl t).length → ∃ n, lineLen S.segs t i = some n := by
    intro i hi
    exact ⟨_, by unfold lineLen; rw [List.getElem?_eq_getElem hi]; rfl⟩
  rcases hm with rfl | rfl
  · by_cases h0 : l = 0
    · subst h0
      refine ⟨n, hn, ?_⟩
      simp [move, moveUp, vertical]; rfl
    · obtain ⟨n', hn'⟩ := some_of_lt (l - 1) (by omega)
      refine ⟨n', hn', ?_⟩
      simp only [move, moveUp, h0, if_false, vertical]
      rw [subU, if_pos (by omega), Except.ok_bind', moveToLine_holds h hcr, hn']
  · simp only [vertical]
    by_cases hlt : l + 1 < (splitNl t).length
    · obtain ⟨n', hn'⟩ := some_of_lt (l + 1) hlt
      rw [if_pos hlt]
      refine ⟨n', hn', ?_⟩
      simp only [move, moveDown]
      rw [moveToLine_holds h hcr, hn']
    · rw [if_neg hlt]
      refine ⟨n, hn, ?_⟩
      simp only [move, moveDown]
      have : lineLen S.segs t (l + 1) = none := by
        unfold lineLen; rw [List.getElem?_eq_none (by omega)]; rfl
      rw [moveToLine_holds h hcr, this]

/-- **C27.** In a text without carriage returns, let the cursor stand on line `l` at column
`min sticky (length of l)`. After any sequence of `move_up`/`move_down` it stands on the line reached by
stepping one line per move, stopping at the first and last line, at column
`min sticky (length of that line)`, and the sticky column is still the same. -/
theorem C27_vertical (S : Segmenter) (g : GapBuffer) (t : Text) (l n k : Nat) (ms : List Move)
    (h : Holds S g t) (hcr : '\r' ∉ t) (hms : ∀ m ∈ ms, Vertical m) (hn : lineLen S.segs t l = some n) :
    ∃ n', lineLen S.segs t (ms.foldl (vertical t) l) = some n' ∧
      moves S g ⟨⟨l, min k n⟩, k⟩ ms = .ok ⟨⟨ms.foldl (vertical t) l, min k n'⟩, k⟩ := by
  induction ms generalizing l n with
  | nil => exact ⟨n, hn, rfl⟩
  | cons m ms ih =>
    obtain ⟨n1, h1, h2⟩ := vertical_move S g t h hcr l n k m (hms m (by simp)) hn
    obtain ⟨n2, h3, h4⟩ := ih (vertical t l m) n1 (fun x hx => hms x (by simp [hx])) h1
    exact ⟨n2, h3, by simp only [moves, h2, Except.ok_bind', h4]; rfl⟩

/-- C27: after moving to a position, any sequence of vertical moves that ends on the same line ends at that
very position. -/
theorem C27_vertical_return (S : Segmenter) (g : GapBuffer) (t : Text) (c c1 : Cursor) (p : Position) (ms : List Move)
    (h : Holds S g t) (hcr : '\r' ∉ t) (hms : ∀ m ∈ ms, Vertical m) (hp : moveTo S g c p = .ok (true, c1))
    (hret : ms.foldl (vertical t) p.line = p.line) :
    ∃ c2, moves S g c1 ms = .ok c2 ∧ c2.position = p := by
  rw [moveTo_holds h] at hp
  split at hp
  next he =>
    obtain ⟨_, rfl⟩ := Prod.mk.inj (Except.ok.inj hp)
    obtain ⟨n, hn, hle⟩ := (exists_lineLen hcr p.line p.offset).mp he
    obtain ⟨n', h1, h2⟩ := C27_vertical S g t p.line n p.offset ms h hcr hms hn
    rw [Nat.min_eq_left hle, hret] at h2
    rw [hret, hn] at h1
    obtain rfl := Option.some.inj h1
    exact ⟨_, h2, by simp [hle]⟩
  next => simp at hp

/-- **C27, new cursors.** A cursor made by `Cursor::new` at a place of the text moves like one that was moved there: vertical moves that lead back to its line
return it to its place. -/
theorem C27_new_cursor (S : Segmenter) (g : GapBuffer) (t : Text) (p : Position) (ms : List Move) (h : Holds S g t) (hcr : '\r' ∉ t)
    (hp : g.inBounds S p = .ok true) (hms : ∀ m ∈ ms, Vertical m) (hret : ms.foldl (vertical t) p.line = p.line) :
    ∃ c2, moves S g (Cursor.new p) ms = .ok c2 ∧ c2.position = p := by
  refine C27_vertical_return S g t (Cursor.new p) (Cursor.new p) p ms h hcr hms ?_ hret
  rw [moveTo, hp]; rfl

example : moves Demo.seg demoG (Cursor.new ⟨1, 3⟩) [.up, .down] = .ok ⟨⟨1, 3⟩, 3⟩ := by decide +kernel

/-- The line reached by stepping, said without recursion for repeated moves: `k` times down, then `k` times
up, returns to the starting line if there are `k` lines below. -/
theorem C27_down_up (t : Text) (l k : Nat) (h : l + k < (splitNl t).length) :
    (List.replicate k Move.down ++ List.replicate k Move.up).foldl (vertical t) l = l := by
  have d : ∀ k l, l + k < (splitNl t).length → (List.replicate k Move.down).foldl (vertical t) l = l + k := by
    intro k
    induction k with
    | zero => intro l _; rfl
    | succ k ih =>
      intro l hl
      rw [List.replicate_succ, List.foldl_cons, show vertical t l .down = l + 1 from if_pos (by omega), ih _ (by omega)]
      omega
  have u : ∀ k l, (List.replicate k Move.up).foldl (vertical t) l = l - k := by
    intro k
    induction k with
    | zero => intro l; rfl
    | succ k ih =>
      intro l
      rw [List.replicate_succ, List.foldl_cons, show vertical t l .up = l - 1 from rfl, ih]
      omega
  rw [List.foldl_append, d k l h, u]
  omega

/-- A buffer with a short middle line. -/
def demoLines : GapBuffer := GapBuffer.new Demo.loose 0 (Demo.s "abcd\né\nxyz\n")
theorem demoLines_holds : Holds Demo.seg demoLines (Demo.s "abcd\né\nxyz\n") := GapBuffer.holds_new _ _
example : '\r' ∉ Demo.s "abcd\né\nxyz\n" := by decide +kernel
example : lineLen Demo.seg.segs (Demo.s "abcd\né\nxyz\n") 0 = some 4 := by decide +kernel
example : moves Demo.seg demoLines ⟨⟨0, 4⟩, 4⟩ [.down] = .ok ⟨⟨1, 1⟩, 4⟩ := by decide +kernel
example : moves Demo.seg demoLines ⟨⟨0, 4⟩, 4⟩ [.down, .down] = .ok ⟨⟨2, 3⟩, 4⟩ := by decide +kernel
example : moves Demo.seg demoLines ⟨⟨0, 4⟩, 4⟩ [.down, .down, .down, .down] = .ok ⟨⟨3, 0⟩, 4⟩ := by decide +kernel
example : moves Demo.seg demoLines ⟨⟨0, 4⟩, 4⟩ [.down, .down, .down, .down, .up, .up, .up, .up] = .ok ⟨⟨0, 4⟩, 4⟩ := by decide +kernel

/-- **C28.** `move_left` from an in-bounds position goes one cluster left on the same line, and does nothing at
column 0. Any text. -/
theorem C28_left (S : Segmenter) (g : GapBuffer) (t : Text) (c : Cursor) (h : Holds S g t)
    (hb : exists? S.segs t c.position = true) :
    move S g c .left = .ok (if c.position.offset = 0 then c
      else ⟨⟨c.position.line, c.position.offset - 1⟩, c.position.offset - 1⟩) := by
  simp only [move, moveLeft]
  split
  next h0 => rfl
  next h0 =>
    rw [subU, if_pos (by omega), Except.ok_bind', moveTo_holds h]
    have : exists? S.segs t ⟨c.position.line, c.position.offset - 1⟩ = true :=
      locate_le (o := c.position.offset) hb (by omega)
    rw [if_pos this]; rfl

/-- C28: `move_right` goes one cluster right, and does nothing at the end of the line (text without carriage
returns; `n` is the length of the cursor's line). -/
theorem C28_right (S : Segmenter) (g : GapBuffer) (t : Text) (c : Cursor) (n : Nat) (h : Holds S g t) (hcr : '\r' ∉ t)
    (hn : lineLen S.segs t c.position.line = some n) :
    move S g c .right = .ok (if c.position.offset < n then ⟨⟨c.position.line, c.position.offset + 1⟩, c.position.offset + 1⟩
      else c) := by
  simp only [move, moveRight]
  rw [moveTo_holds h]
  have : exists? S.segs t ⟨c.position.line, c.position.offset + 1⟩ = decide (c.position.offset < n) := by
    rw [Bool.eq_iff_iff, exists_lineLen hcr]
    simp [hn]; omega
  rw [this]
  by_cases hlt : c.position.offset < n <;> simp [hlt]

/-- C28: `move_to_start_of_line`. Any text. -/
theorem C28_start (S : Segmenter) (g : GapBuffer) (t : Text) (c : Cursor) (h : Holds S g t)
    (hb : exists? S.segs t c.position = true) :
    move S g c .startOfLine = .ok ⟨⟨c.position.line, 0⟩, 0⟩ := by
  simp only [move, moveToStartOfLine]
  have : exists? S.segs t ⟨c.position.line, 0⟩ = true := locate_start (o := c.position.offset) hb
  rw [moveTo_holds h, if_pos this]; rfl

/-- C28: `move_to_end_of_line` on a text without carriage returns. -/
theorem C28_end (S : Segmenter) (g : GapBuffer) (t : Text) (c : Cursor) (n : Nat) (h : Holds S g t) (hcr : '\r' ∉ t)
    (hn : lineLen S.segs t c.position.line = some n) (hb : c.position.offset ≤ n) :
    ∃ c', move S g c .endOfLine = .ok c' ∧ c'.position = ⟨c.position.line, n⟩ := by
  simp only [move, moveToEndOfLine, h.toStr, Except.ok_bind']
  have hn' := hn
  unfold lineLen at hn'
  rw [Option.map_eq_some_iff] at hn'
  obtain ⟨l, hl, hlen⟩ := hn'
  rcases strLines_getElem hcr _ hl with h1 | ⟨h1, rfl⟩
  · rw [h1]
    have : exists? S.segs t ⟨c.position.line, (S.segs l).length⟩ = true := (exists_lineLen hcr _ _).mpr ⟨n, hn, by omega⟩
    simp only
    rw [moveTo_holds h, if_pos this]
    exact ⟨_, rfl, by rw [hlen]⟩
  · rw [h1]
    refine ⟨c, rfl, ?_⟩
    simp at hlen
    subst hlen
    cases c with | mk p s => cases p; simp at hb ⊢; exact hb

example : move Demo.seg demoG ⟨⟨1, 2⟩, 2⟩ .left = .ok ⟨⟨1, 1⟩, 1⟩ := by decide +kernel
example : move Demo.seg demoG ⟨⟨0, 1⟩, 1⟩ .right = .ok ⟨⟨0, 1⟩, 1⟩ := by decide +kernel
example : exists? Demo.seg.segs (Demo.s "é\nxyz") ⟨1, 2⟩ = true ∧ lineLen Demo.seg.segs (Demo.s "é\nxyz") 1 = some 3 ∧
    '\r' ∉ Demo.s "é\nxyz" := by decide +kernel
example : move Demo.seg demoG ⟨⟨1, 1⟩, 1⟩ .endOfLine = .ok ⟨⟨1, 3⟩, 3⟩ := by decide +kernel

/-- **C29.** `move_to_first_line` puts any cursor on line 0 at column `min sticky (length of line 0)`. -/
theorem C29_first_line (S : Segmenter) (g : GapBuffer) (t : Text) (c : Cursor) (h : Holds S g t) (hcr : '\r' ∉ t) :
    ∃ n, lineLen S.segs t 0 = some n ∧ move S g c .firstLine = .ok ⟨⟨0, min c.sticky n⟩, min c.sticky n⟩ := by
  obtain ⟨l, hl⟩ : ∃ l, (splitNl t)[0]? = some l := by
    cases hs : splitNl t with
    | nil => exact absurd hs (splitNl_ne_nil t)
    | cons l _ => exact ⟨l, by simp⟩
  have hn : lineLen S.segs t 0 = some (S.segs l).length := by rw [lineLen, hl]; rfl
  refine ⟨_, hn, ?_⟩
  simp only [move, moveToFirstLine, h.toStr, Except.ok_bind']
  have e : ((strLines t)[0]?.map fun l => (S.segs l).length).getD 0 = (S.segs l).length := lineEnd_eq hcr hn
  rw [e, moveTo_holds h]
  have hex : ∀ o, o ≤ (S.segs l).length → exists? S.segs t ⟨0, o⟩ = true := fun o ho => (exists_lineLen hcr 0 o).mpr ⟨_, hn, ho⟩
  split
  next hlt => rw [if_pos (hex _ (Nat.le_refl _)), Nat.min_eq_right (Nat.le_of_lt hlt)]; rfl
  next hlt => rw [if_pos (hex _ (by omega)), Nat.min_eq_left (by omega)]; rfl

/-- C29: `move_to_last_line` puts any cursor on the last line at column `min sticky (its length)`. -/
theorem C29_last_line (S : Segmenter) (g : GapBuffer) (t : Text) (c : Cursor) (h : Holds S g t) (hcr : '\r' ∉ t) :
    ∃ n, lineLen S.segs t (countNl t) = some n ∧
      move S g c .lastLine = .ok ⟨⟨countNl t, min c.sticky n⟩, min c.sticky n⟩ := by
  obtain ⟨h1, h2⟩ := endPos_text (S := S) hcr
  rw [length_splitNl] at h1
  have h1' : (endPos (S.segs t)).line = countNl t := by omega
  rw [h1'] at h2
  refine ⟨_, h2, ?_⟩
  simp only [move, moveToLastLine, h.toStr, Except.ok_bind']
  have e : lastLine (S.segs t) (0, 0) = (countNl t, (endPos (S.segs t)).offset) := by
    have := lastLine_eq (S.segs t) ⟨0, 0⟩
    rw [← endPos_eq_foldl, h1'] at this; exact this
  have hex : ∀ o, o ≤ (endPos (S.segs t)).offset → exists? S.segs t ⟨countNl t, o⟩ = true := fun o ho =>
    (exists_lineLen hcr _ o).mpr ⟨_, h2, ho⟩
  rw [e]
  simp only
  rw [moveTo_holds h]
  split
  next hlt => rw [if_pos (hex _ (Nat.le_refl _)), Nat.min_eq_right (Nat.le_of_lt hlt)]; rfl
  next hlt => rw [if_pos (hex _ (by omega)), Nat.min_eq_left (by omega)]; rfl

example : move Demo.seg demoLines ⟨⟨1, 1⟩, 4⟩ .firstLine = .ok ⟨⟨0, 4⟩, 4⟩ := by decide +kernel
example : move Demo.seg demoG ⟨⟨0, 1⟩, 2⟩ .lastLine = .ok ⟨⟨1, 2⟩, 2⟩ := by decide +kernel

end Scribe.Props
