import Verif.Props.Findings
import Verif.Props.GapBuffer
import Verif.Spec.LineRange
/-! # Property C78: line ranges -/
namespace Scribe.Props
open Spec Buf

theorem unlines_nil : unlines [] = [] := rfl
theorem unlines_cons (l : Text) (ls : List Text) (h : ls ≠ []) : unlines (l :: ls) = l ++ '\n' :: unlines ls := by
  cases ls with
  | nil => exact absurd rfl h
  | cons x xs => simp [unlines, List.intercalate, List.intersperse]

theorem unlines_splitNl (t : Text) : unlines (splitNl t) = t := by
  induction t using lines_induction with
  | h1 l h => rw [splitNl_no_nl h]; simp [unlines, List.intercalate]
  | h2 l r h ih => rw [splitNl_append h, unlines_cons _ _ (splitNl_ne_nil r), ih]

theorem unlines_append (a b : List Text) (h : b ≠ []) : unlines (a ++ b) = asLines a ++ unlines b := by
  induction a with
  | nil => rfl
  | cons l a ih =>
    rw [List.cons_append, unlines_cons _ _ (by simp [h]), ih]
    simp [asLines]

/-- Where a line starts. -/
theorem locate_line_start (S : Segmenter) {t : Text} (hcr : '\r' ∉ t) (i : Nat) (hi : i < (splitNl t).length) :
    ∃ a b, locate (S.segs t) ⟨i, 0⟩ = some (a, b) ∧ a.flatten = asLines ((splitNl t).take i) ∧ b.flatten = unlines ((splitNl t).drop i) ∧
      (∃ l r, t = l ++ r ∧ S.segs l = a ∧ S.segs r = b ∧ ∀ l' : Text, S.segs (a.flatten ++ l') = a ++ S.segs l') := by
  induction t using lines_induction generalizing i with
  | h1 l h =>
    rw [splitNl_no_nl h] at hi ⊢
    obtain rfl : i = 0 := by simpa using hi
    refine ⟨[], S.segs l, ?_, rfl, ?_, [], l, rfl, ?_, rfl, fun l' => rfl⟩
    · rw [locate_eq_some]; exact ⟨rfl, rfl⟩
    · rw [S.join]; simp [unlines, List.intercalate]
    · exact (S.cut l [] (S.segs l) rfl).1
  | h2 l r h ih =>
    have hl : '\r' ∉ l := fun hm => hcr (by simp [hm])
    have hr : '\r' ∉ r := fun hm => hcr (by simp [hm])
    rw [splitNl_append h] at hi ⊢
    cases i with
    | zero =>
      refine ⟨[], S.segs (l ++ '\n' :: r), ?_, rfl, ?_, [], _, rfl, ?_, rfl, fun l' => rfl⟩
      · rw [locate_eq_some]; exact ⟨rfl, rfl⟩
      · rw [S.join, List.drop_zero, unlines_cons _ _ (splitNl_ne_nil r), unlines_splitNl]
      · exact (S.cut (l ++ '\n' :: r) [] _ rfl).1
    | succ i =>
      obtain ⟨a, b, h1, h2, h3, x, y, e, k1, k2, k3⟩ := ih hr i (by simpa using hi)
      refine ⟨S.segs l ++ ['\n'] :: a, b, ?_, ?_, ?_, l ++ '\n' :: x, y, by rw [e]; simp, ?_, k2, ?_⟩
      · rw [S.segs_line h hl, locate_line_succ (S.nl_notMem h), h1]; rfl
      · simp [S.join, h2, asLines]
      · simpa using h3
      · rw [S.segs_line h hl, k1]
      · intro l'
        have : (S.segs l ++ ['\n'] :: a).flatten ++ l' = l ++ '\n' :: (a.flatten ++ l') := by simp [S.join]
        rw [this, S.segs_line h hl, k3]; simp

theorem locate_no_line (S : Segmenter) {t : Text} (hcr : '\r' ∉ t) (i : Nat) (hi : ¬ i < (splitNl t).length) : locate (S.segs t) ⟨i, 0⟩ = none := by
  cases h : locate (S.segs t) ⟨i, 0⟩ with
  | none => rfl
  | some x =>
    obtain ⟨l, hl, _⟩ := (exists_iff_line S hcr i 0).mp (by unfold exists?; rw [h]; rfl)
    exact absurd (List.getElem?_eq_some_iff.mp hl).1 hi

/-- Deleting from line start to line start, on texts. -/
theorem deleteRange_lines (S : Segmenter) {t : Text} (hcr : '\r' ∉ t) (s e : Nat) :
    Spec.deleteRange S.segs t ⟨s, 0⟩ ⟨e, 0⟩ = unlines (deleteLines (splitNl t) s e) := by
  unfold Spec.deleteRange deleteLines
  by_cases hs : s < (splitNl t).length
  · obtain ⟨a, b, h1, h2, h3, _⟩ := locate_line_start S hcr s hs
    rw [h1, if_pos hs]
    by_cases he : e < (splitNl t).length
    · obtain ⟨a', b', h1', h2', h3', _⟩ := locate_line_start S hcr e he
      rw [if_pos he, unlines_append _ _ (by simpa using he), ← h2, ← h3']
      simp only [afterEnd, h1']
    · rw [if_neg he, unlines_append _ _ (by simp), ← h2]
      simp only [afterEnd, locate_no_line S hcr e he, locate_no_line S hcr (e + 1) (by omega)]
      simp [unlines, List.intercalate]
  · rw [locate_no_line S hcr s hs, if_neg hs, unlines_splitNl]

theorem cleanDelete_lines (S : Segmenter) {t : Text} (hcr : '\r' ∉ t) (s e : Nat) : CleanDelete S.segs t ⟨s, 0⟩ ⟨e, 0⟩ := by
  intro a b hl
  have hs : s < (splitNl t).length := by
    by_contra hs
    rw [locate_no_line S hcr s hs] at hl; cases hl
  obtain ⟨a', b', h1, h2, h3, l, r, e1, k1, k2, k3⟩ := locate_line_start S hcr s hs
  rw [hl] at h1
  cases h1
  rw [k3]
  by_cases he : e < (splitNl t).length
  · obtain ⟨a2, b2, h1', h2', h3', l2, r2, e2, q1, q2, q3⟩ := locate_line_start S hcr e he
    simp only [afterEnd, h1']
    rw [← q2, S.join]
  · simp only [afterEnd, locate_no_line S hcr e he, locate_no_line S hcr (e + 1) (by omega)]
    exact congrArg (a ++ ·) (S.cut t [] (S.segs t) rfl).1

theorem lo_lines {s e : Nat} (h : s ≤ e) : lo ⟨s, 0⟩ ⟨e, 0⟩ = ⟨s, 0⟩ ∧ hi ⟨s, 0⟩ ⟨e, 0⟩ = ⟨e, 0⟩ := by
  unfold lo hi
  have : s < e ∨ s = e := by omega
  rcases this with h | rfl
  · simp [h]
  · simp

/-- The two ranges of a line range. -/
theorem lineRange_ranges (a b : Nat) :
    (LineRange.new a b).toRange = Range.new ⟨min a b, 0⟩ ⟨max a b, 0⟩ ∧
    (LineRange.new a b).toInclusiveRange = Range.new ⟨min a b, 0⟩ ⟨max a b + 1, 0⟩ := by
  have : LineRange.new a b = ⟨min a b, max a b⟩ := by
    unfold LineRange.new
    split
    · rw [Nat.min_eq_left (by omega), Nat.max_eq_right (by omega)]
    · rw [Nat.min_eq_right (by omega), Nat.max_eq_left (by omega)]
  rw [this]
  exact ⟨rfl, rfl⟩

/-- **C78.** In text without CR, reading a line range gives exactly its lines with their newlines. It fails if the line after the range does not exist, so the
last line can never be read by lines. -/
theorem C78_read (S : Segmenter) (g : GapBuffer) (t : Text) (a b : Nat) (h : Holds S g t) (hcr : '\r' ∉ t) :
    let ls := splitNl t
    g.read S (LineRange.new a b).toRange = .ok (if max a b < ls.length then some (asLines (linesBetween ls (min a b) (max a b))) else none) ∧
    g.read S (LineRange.new a b).toInclusiveRange =
      .ok (if max a b + 1 < ls.length then some (asLines (linesBetween ls (min a b) (max a b + 1))) else none) := by
  have key : ∀ s e, s ≤ e → g.read S (Range.new ⟨s, 0⟩ ⟨e, 0⟩) =
      .ok (if e < (splitNl t).length then some (asLines (linesBetween (splitNl t) s e)) else none) := by
    intro s e hse
    rw [h.read _ (range_new_ok _ _), range_new, (lo_lines hse).1, (lo_lines hse).2]
    congr 1
    unfold readRange
    by_cases he : e < (splitNl t).length
    · obtain ⟨a1, b1, h1, h2, h3, _⟩ := locate_line_start S hcr s (by omega)
      obtain ⟨a2, b2, k1, k2, k3, _⟩ := locate_line_start S hcr e he
      obtain ⟨d, rfl, rfl⟩ := locate_mono h1 k1 (by unfold AtOrBefore; simp; omega)
      simp only [h1, k1, if_pos he, Option.some.injEq]
      rw [List.drop_left]
      rw [List.flatten_append, h2] at k2
      have e1 : (splitNl t).take e = (splitNl t).take s ++ linesBetween (splitNl t) s e := by
        unfold linesBetween
        rw [← List.take_add]
        congr 1; omega
      have e2 : ∀ x y, asLines (x ++ y) = asLines x ++ asLines y := by intro x y; simp [asLines]
      rw [e1, e2] at k2
      exact List.append_cancel_left k2
    · rw [if_neg he, locate_no_line S hcr e he]
      cases locate (S.segs t) ⟨s, 0⟩ <;> rfl
  intro ls
  rw [(lineRange_ranges a b).1, (lineRange_ranges a b).2]
  exact ⟨key _ _ (by omega), key _ _ (by omega)⟩

-- lines 0 to 1 of "é\nxyz"; the last line cannot be read
example : GapBuffer.read Demo.seg demoG (LineRange.new 1 0).toRange = .ok (some (Demo.s "é\n")) := by decide +kernel
example : GapBuffer.read Demo.seg demoG (LineRange.new 0 1).toInclusiveRange = .ok none := by decide +kernel
example : '\r' ∉ Demo.s "é\nxyz" := by decide

/-- C78: deleting a line range removes exactly its lines; if the line after the range does not exist, an empty last line remains. -/
theorem C78_delete (S : Segmenter) (g : GapBuffer) (t : Text) (a b : Nat) (h : Holds S g t) (hcr : '\r' ∉ t) :
    (∃ g', g.delete S (LineRange.new a b).toRange = .ok g' ∧ g'.toStr = .ok (unlines (deleteLines (splitNl t) (min a b) (max a b)))) ∧
    (∃ g', g.delete S (LineRange.new a b).toInclusiveRange = .ok g' ∧ g'.toStr = .ok (unlines (deleteLines (splitNl t) (min a b) (max a b + 1)))) := by
  have key : ∀ s e, s ≤ e → ∃ g', g.delete S (Range.new ⟨s, 0⟩ ⟨e, 0⟩) = .ok g' ∧ g'.toStr = .ok (unlines (deleteLines (splitNl t) s e)) := by
    intro s e hse
    obtain ⟨g', hd, ht, _⟩ := h.delete _ (range_new_ok ⟨s, 0⟩ ⟨e, 0⟩)
    rw [range_new, (lo_lines hse).1, (lo_lines hse).2, deleteRange_lines S hcr s e] at ht
    exact ⟨g', hd, ht⟩
  rw [(lineRange_ranges a b).1, (lineRange_ranges a b).2]
  exact ⟨key _ _ (by omega), key _ _ (by omega)⟩

example : (do GapBuffer.toStr (← GapBuffer.delete Demo.seg demoG (LineRange.new 0 0).toInclusiveRange)) = .ok (Demo.s "xyz") := by decide +kernel
-- an empty last line remains
example : (do GapBuffer.toStr (← GapBuffer.delete Demo.seg demoG (LineRange.new 1 1).toInclusiveRange)) = .ok (Demo.s "é\n") := by decide +kernel

/-- C78: undoing the deletion of lines restores them if the line after them exists; otherwise they are lost, so deleting the last line by lines can never be
undone. -/
theorem C78_undo (S : Segmenter) (A : Alloc) (b : Buf) (d : Doc) (s e : Nat) (hse : s ≤ e) (h : Reached S A b d) (hg : b.group = none) (hcr : '\r' ∉ d.text) :
    ∃ b', execAll S A b [.deleteRange ⟨s, 0⟩ ⟨e, 0⟩, .undo] = .ok b' ∧
      b'.data.toStr = .ok (if e < (splitNl d.text).length then d.text else unlines (deleteLines (splitNl d.text) s e)) := by
  by_cases he : e < (splitNl d.text).length
  · rw [if_pos he]
    have ht : b.data.toStr = .ok d.text := h.holds.toStr
    obtain ⟨b', h1, h2, _⟩ := C12_undo_reverses S A b d (.deleteRange ⟨s, 0⟩ ⟨e, 0⟩) [] h hg
      (by
        obtain ⟨a2, b2, k1, _⟩ := locate_line_start S hcr e he
        simp only [CleanCmd, (lo_lines hse).1, (lo_lines hse).2]
        exact ⟨cleanDelete_lines S hcr s e, .inl (by unfold exists?; rw [k1]; rfl)⟩)
      trivial (by simp)
    exact ⟨b', h1, by rw [h2, ht]⟩
  · rw [if_neg he]
    obtain ⟨b', h1, h2, _⟩ := C50_clipped_delete_not_undone S A b d ⟨s, 0⟩ ⟨e, 0⟩ h hg
      (by rw [(lo_lines hse).2]; unfold exists?; rw [locate_no_line S hcr e he]; rfl)
    rw [(lo_lines hse).1, (lo_lines hse).2, deleteRange_lines S hcr s e] at h2
    exact ⟨b', h1, h2⟩

example : (do (← execAll Demo.seg Demo.tight (Buf.fromContent Demo.tight 0 (Demo.s "a\nb\nc")) [.deleteRange ⟨0, 0⟩ ⟨2, 0⟩, .undo]).data.toStr) = .ok (Demo.s "a\nb\nc") := by
  decide +kernel
-- deleting the last line and undoing that
example : (do (← execAll Demo.seg Demo.tight (Buf.fromContent Demo.tight 0 (Demo.s "a\nb\nc")) [.deleteRange ⟨2, 0⟩ ⟨3, 0⟩, .undo]).data.toStr) = .ok (Demo.s "a\nb\n") := by
  decide +kernel

end Scribe.Props
