import Verif.Spec.Cursor
import Verif.Proofs.Lines
/-! Lemmas about the cursor. -/
namespace Scribe
open Spec
namespace Cursor
variable {S : Segmenter}

/-- `in_bounds` as a Boolean, for a representable buffer. -/
def bounds (S : Segmenter) (pre post : Text) (p : Position) : Bool := (locate (S.segs pre ++ S.segs post) p).isSome

theorem moveTo_rep {g pre post} (h : Rep g pre post) (c : Cursor) (p : Position) :
    moveTo S g c p = .ok (if bounds S pre post p then (true, ⟨p, p.offset⟩) else (false, c)) := by
  unfold moveTo
  rw [GapBuffer.inBounds_rep h]
  simp only [Except.ok_bind', bounds]
  by_cases hb : (locate (S.segs pre ++ S.segs post) p).isSome = true
  · simp only [hb, if_true]; rfl
  · simp only [hb]; rfl

theorem moveToLine_rep {g pre post} (h : Rep g pre post) (c : Cursor) (target : Nat) :
    moveToLine S g c target = .ok
      (if bounds S pre post ⟨target, c.sticky⟩ then ⟨⟨target, c.sticky⟩, c.sticky⟩
       else if bounds S pre post ⟨target, lineEnd S (pre ++ post) target⟩ then ⟨⟨target, lineEnd S (pre ++ post) target⟩, c.sticky⟩
       else c) := by
  unfold moveToLine
  simp only [moveTo_rep h, Except.ok_bind']
  by_cases hb : bounds S pre post ⟨target, c.sticky⟩ = true
  · simp only [hb, if_true]; rfl
  · simp only [hb]
    simp only [Bool.false_eq_true, if_false, Bool.not_false, if_true, h.toStr, Except.ok_bind']
    split <;> rfl

/-- A movement either keeps the cursor position or moves to an in-bounds position. -/
theorem move_rep {g pre post} (h : Rep g pre post) (c : Cursor) (m : Move) :
    ∃ c', move S g c m = .ok c' ∧ (c'.position = c.position ∨ bounds S pre post c'.position = true) := by
  have mt : ∀ (c : Cursor) p, ∃ c', (do return (← moveTo S g c p).2 : R Cursor) = .ok c' ∧
      (c'.position = c.position ∨ bounds S pre post c'.position = true) := by
    intro c p
    rw [moveTo_rep h]
    by_cases hb : bounds S pre post p = true
    · exact ⟨_, rfl, Or.inr (by simp [hb])⟩
    · exact ⟨_, rfl, Or.inl (by simp [hb])⟩
  have toLine : ∀ (c : Cursor) n, ∃ c', moveToLine S g c n = .ok c' ∧
      (c'.position = c.position ∨ bounds S pre post c'.position = true) := by
    intro c n
    rw [moveToLine_rep h]
    refine ⟨_, rfl, ?_⟩
    split
    next hb => exact Or.inr hb
    next =>
      split
      next hb => exact Or.inr hb
      next => exact Or.inl rfl
  cases m with
  | «to» p => exact mt c p
  | up =>
    simp only [move, moveUp]
    split
    · exact ⟨c, rfl, Or.inl rfl⟩
    · rw [subU, if_pos (by omega)]; exact toLine c _
  | down => exact toLine c _
  | left =>
    simp only [move, moveLeft]
    split
    · exact ⟨c, rfl, Or.inl rfl⟩
    · rw [subU, if_pos (by omega)]; exact mt c _
  | right => exact mt c _
  | startOfLine => exact mt c _
  | endOfLine =>
    simp only [move, moveToEndOfLine, h.toStr, Except.ok_bind']
    split
    · exact mt c _
    · exact ⟨c, rfl, Or.inl rfl⟩
  | lastLine =>
    simp only [move, moveToLastLine, h.toStr, Except.ok_bind']
    exact mt c _
  | firstLine =>
    simp only [move, moveToFirstLine, h.toStr, Except.ok_bind']
    exact mt c _

theorem moves_rep {g pre post} (h : Rep g pre post) (c : Cursor) (ms : List Move) :
    ∃ c', moves S g c ms = .ok c' ∧ (c'.position = c.position ∨ bounds S pre post c'.position = true) := by
  induction ms generalizing c with
  | nil => exact ⟨c, rfl, Or.inl rfl⟩
  | cons m ms ih =>
    obtain ⟨c1, h1, k1⟩ := move_rep (S := S) h c m
    obtain ⟨c2, h2, k2⟩ := ih c1
    refine ⟨c2, by simp only [moves, h1, Except.ok_bind', h2], ?_⟩
    rcases k2 with k2 | k2
    · rw [k2]; exact k1
    · exact Or.inr k2

end Cursor

theorem splitInclusive_no_nl {l : Text} (h : '\n' ∉ l) : splitInclusive l = if l = [] then [] else [l] := by
  induction l with
  | nil => rfl
  | cons c l ih =>
    have h1 : c ≠ '\n' := by rintro rfl; simp at h
    rw [splitInclusive, if_neg h1, ih (fun hm => h (by simp [hm]))]
    by_cases hl : l = [] <;> simp [hl]

theorem splitInclusive_append {l r : Text} (h : '\n' ∉ l) :
    splitInclusive (l ++ '\n' :: r) = (l ++ ['\n']) :: splitInclusive r := by
  induction l with
  | nil => simp [splitInclusive]
  | cons c l ih =>
    have h1 : c ≠ '\n' := by rintro rfl; simp at h
    rw [List.cons_append, splitInclusive, if_neg h1, ih (fun hm => h (by simp [hm]))]; rfl

/-- `str::lines` of a text without CR: the pieces between newlines, without an empty last one. -/
theorem strLines_getElem {t : Text} (hcr : '\r' ∉ t) (i : Nat) {l : Text} (hl : (splitNl t)[i]? = some l) :
    (strLines t)[i]? = some l ∨ ((strLines t)[i]? = none ∧ l = []) := by
  induction t using lines_induction generalizing i with
  | h1 l' h =>
    rw [splitNl_no_nl h] at hl
    cases i with
    | succ i => simp at hl
    | zero =>
      simp at hl; subst hl
      unfold strLines
      rw [splitInclusive_no_nl h]
      by_cases he : l' = []
      · simp [he]
      · left
        simp only [he, if_false, List.map_cons, List.getElem?_cons_zero, Option.some.injEq]
        unfold stripEol
        rw [if_neg (fun hg => h (List.mem_of_getLast? hg))]
  | h2 l' r h ih =>
    have hl' : '\r' ∉ l' := fun hm => hcr (by simp [hm])
    have hr : '\r' ∉ r := fun hm => hcr (by simp [hm])
    rw [splitNl_append h] at hl
    unfold strLines at ih ⊢
    rw [splitInclusive_append h]
    cases i with
    | zero =>
      left
      simp at hl; subst hl
      simp only [List.map_cons, List.getElem?_cons_zero, Option.some.injEq]
      unfold stripEol
      simp only [List.getLast?_append, List.getLast?_singleton, Option.some_or, if_true, List.dropLast_concat]
      rw [if_neg (fun hg => hl' (List.mem_of_getLast? hg))]
    | succ i =>
      simp only [List.map_cons, List.getElem?_cons_succ] at hl ⊢
      exact ih hr i hl

namespace Cursor
variable {S : Segmenter}

theorem lineEnd_eq {t : Text} (hcr : '\r' ∉ t) {i n : Nat} (h : lineLen S.segs t i = some n) : lineEnd S t i = n := by
  unfold lineLen at h
  rw [Option.map_eq_some_iff] at h
  obtain ⟨l, hl, rfl⟩ := h
  unfold lineEnd
  rcases strLines_getElem hcr i hl with h | ⟨h, rfl⟩
  · rw [h]; rfl
  · rw [h]; simp

theorem exists_lineLen {t : Text} (hcr : '\r' ∉ t) (i o : Nat) :
    exists? S.segs t ⟨i, o⟩ = true ↔ ∃ n, lineLen S.segs t i = some n ∧ o ≤ n := by
  rw [exists_iff_line S hcr]
  unfold lineLen
  constructor
  · rintro ⟨l, h1, h2⟩; exact ⟨_, by rw [h1]; rfl, h2⟩
  · rintro ⟨n, h1, h2⟩
    rw [Option.map_eq_some_iff] at h1
    obtain ⟨l, hl, rfl⟩ := h1
    exact ⟨l, hl, h2⟩

theorem moveTo_holds {g t} (h : Holds S g t) (c : Cursor) (p : Position) :
    moveTo S g c p = .ok (if exists? S.segs t p then (true, ⟨p, p.offset⟩) else (false, c)) := by
  obtain ⟨pre, post, rfl, hr, ha⟩ := h
  rw [moveTo_rep hr, bounds, exists?, ha]

theorem moveToLine_holds {g t} (h : Holds S g t) (hcr : '\r' ∉ t) (c : Cursor) (target : Nat) :
    moveToLine S g c target = .ok
      (match lineLen S.segs t target with
       | some n => ⟨⟨target, min c.sticky n⟩, c.sticky⟩
       | none => c) := by
  obtain ⟨pre, post, rfl, hr, ha⟩ := h
  rw [moveToLine_rep hr]
  have hb : ∀ p, bounds S pre post p = exists? S.segs (pre ++ post) p := by intro p; rw [bounds, exists?, ha]
  rw [hb, hb]
  cases hn : lineLen S.segs (pre ++ post) target with
  | none =>
    have : ∀ o, exists? S.segs (pre ++ post) ⟨target, o⟩ = false := by
      intro o
      rw [Bool.eq_false_iff]; intro he
      obtain ⟨n, h1, _⟩ := (exists_lineLen hcr target o).mp he
      rw [hn] at h1; cases h1
    rw [this, this]; simp
  | some n =>
    rw [lineEnd_eq hcr hn]
    by_cases hle : c.sticky ≤ n
    · rw [if_pos ((exists_lineLen hcr target c.sticky).mpr ⟨n, hn, hle⟩)]
      simp [hle]
    · have h1 : ¬ exists? S.segs (pre ++ post) ⟨target, c.sticky⟩ = true := by
        intro he
        obtain ⟨m, h1, h2⟩ := (exists_lineLen hcr target _).mp he
        rw [hn] at h1; cases h1; exact hle h2
      rw [if_neg h1, if_pos ((exists_lineLen hcr target n).mpr ⟨n, hn, Nat.le_refl _⟩)]
      have : min c.sticky n = n := by omega
      simp [this]

theorem lastLine_eq (cs : List Text) (p : Position) : lastLine cs (p.line, p.offset) = ((cs.foldl step p).line, (cs.foldl step p).offset) := by
  induction cs generalizing p with
  | nil => rfl
  | cons c cs ih =>
    unfold lastLine
    rw [List.foldl_cons]
    unfold step
    split
    next h => exact ih ⟨p.line + 1, 0⟩
    next h => exact ih ⟨p.line, p.offset + 1⟩

end Cursor
end Scribe

namespace Scribe
open Spec
variable {S : Segmenter}

/-- A position with positive offset has a left neighbour on its line. -/
theorem locate_left {cs : List Text} {l o : Nat} (h : (locate cs ⟨l, o + 1⟩).isSome) : (locate cs ⟨l, o⟩).isSome := by
  obtain ⟨⟨a, b⟩, h⟩ := Option.isSome_iff_exists.mp h
  obtain ⟨h1, h2⟩ := locate_eq_some.mp h
  rcases List.eq_nil_or_concat a with rfl | ⟨a', c, rfl⟩
  · cases h2
  · rw [List.concat_eq_append, endPos_concat] at h2
    have h3 : endPos a' = ⟨l, o⟩ := by
      unfold step at h2
      split at h2
      · cases h2
      · obtain ⟨k1, k2⟩ := Position.mk.inj h2
        cases he : endPos a' with
        | mk x y => rw [he] at k1 k2; simp at k1 k2; simp [k1, k2]
    rw [Option.isSome_iff_exists]
    exact ⟨(a', c :: b), locate_eq_some.mpr ⟨by rw [h1]; simp, h3⟩⟩

/-- A position exists only if the start of its line does. -/
theorem locate_start {cs : List Text} {l o : Nat} (h : (locate cs ⟨l, o⟩).isSome) : (locate cs ⟨l, 0⟩).isSome := by
  induction o with
  | zero => exact h
  | succ o ih => exact ih (locate_left h)

theorem locate_le {cs : List Text} {l o o' : Nat} (h : (locate cs ⟨l, o⟩).isSome) (ho : o' ≤ o) : (locate cs ⟨l, o'⟩).isSome := by
  obtain ⟨d, rfl⟩ := Nat.exists_eq_add_of_le ho
  clear ho
  induction d with
  | zero => exact h
  | succ d ih => exact ih (locate_left h)

/-- Where a text without CR ends: on its last line, after all of that line's clusters. -/
theorem endPos_text {t : Text} (hcr : '\r' ∉ t) :
    (endPos (S.segs t)).line + 1 = (splitNl t).length ∧
      lineLen S.segs t (endPos (S.segs t)).line = some (endPos (S.segs t)).offset := by
  induction t using lines_induction with
  | h1 l h => rw [splitNl_no_nl h, endPos_line_zero (S.nl_notMem h)]; simp [lineLen, splitNl_no_nl h]
  | h2 l r h ih =>
    have hl : '\r' ∉ l := fun hm => hcr (by simp [hm])
    have hr : '\r' ∉ r := fun hm => hcr (by simp [hm])
    obtain ⟨k1, k2⟩ := ih hr
    rw [S.segs_line h hl, endPos_after_nl (S.nl_notMem h), splitNl_append h]
    refine ⟨by simp [k1], ?_⟩
    unfold lineLen at k2 ⊢
    rw [splitNl_append h]
    simpa using k2

theorem locate_end (cs : List Text) : locate cs (endPos cs) = some (cs, []) := locate_eq_some.mpr ⟨by simp, rfl⟩

/-- On an aligned buffer every movement does what the specification says. -/
theorem Cursor.move_holds {g t} (h : Holds S g t) (c : Cursor) (m : Cursor.Move) :
    Cursor.move S g c m = .ok (moveCursor S.segs t c m) := by
  have hmt : ∀ c p, (do return (← Cursor.moveTo S g c p).2 : R Cursor) = .ok (tryMove S.segs t c p) := by
    intro c p
    rw [Cursor.moveTo_holds h]; unfold tryMove
    split <;> rfl
  have hml : ∀ c n, Cursor.moveToLine S g c n = .ok (tryLine S.segs t c n) := by
    intro c n
    obtain ⟨pre, post, rfl, hr, ha⟩ := id h
    rw [Cursor.moveToLine_rep hr]
    have hb : ∀ p, Cursor.bounds S pre post p = exists? S.segs (pre ++ post) p := by intro p; rw [Cursor.bounds, exists?, ha]
    rw [hb, hb]; rfl
  have hmin : ∀ l len k : Nat, (if len < k then ⟨l, len⟩ else ⟨l, k⟩ : Position) = ⟨l, min k len⟩ := by
    intro l len k
    split
    · rw [Nat.min_eq_right (by omega)]
    · rw [Nat.min_eq_left (by omega)]
  cases m with
  | «to» p => exact hmt c p
  | up =>
    simp only [Cursor.move, Cursor.moveUp, moveCursor]
    split
    · rfl
    · rw [subU, if_pos (by omega)]; exact hml c _
  | down => exact hml c _
  | left =>
    simp only [Cursor.move, Cursor.moveLeft, moveCursor]
    split
    · rfl
    · rw [subU, if_pos (by omega)]; exact hmt c _
  | right => exact hmt c _
  | startOfLine => exact hmt c _
  | endOfLine =>
    simp only [Cursor.move, Cursor.moveToEndOfLine, h.toStr, Except.ok_bind', moveCursor]
    cases (strLines t)[c.position.line]? with
    | none => rfl
    | some l => exact hmt c _
  | lastLine =>
    simp only [Cursor.move, Cursor.moveToLastLine, h.toStr, Except.ok_bind', moveCursor]
    have := Cursor.lastLine_eq (S.segs t) ⟨0, 0⟩
    rw [← endPos_eq_foldl] at this
    simp only [this, hmin]
    exact hmt c _
  | firstLine =>
    simp only [Cursor.move, Cursor.moveToFirstLine, h.toStr, Except.ok_bind', moveCursor, hmin]
    exact hmt c _

end Scribe
