import Verif.Proofs.Stray
import Verif.Props.History
/-!
# C117: moving a cursor that is not in the text
-/
namespace Scribe.Props
open Spec Buf Cursor
variable (S : Segmenter) (A : Alloc)

theorem moves_stray {b : Buf} {t : Text} (h : Holds S b.data t) (hcr : '\r' ∉ t) (ms : List Move) : ∀ c,
    execAll S A { b with cursor := c } (ms.map .move) = .ok { b with cursor := stray (lengths S.segs t) c ms } := by
  induction ms with
  | nil => intro c; rfl
  | cons m ms ih =>
    intro c
    simp only [List.map_cons, execAll, exec, move_stray h hcr c m, Except.ok_bind']
    exact ih _

/-- **C117.** In a text without carriage returns, where any keys take any cursor, also one that is not in the text, is a function of the lengths of the lines and of where it
was. Nothing else of the buffer changes. -/
theorem C117_walk (b : Buf) (d : Doc) (h : Reached S A b d) (t : Text) (ht : b.data.toStr = .ok t) (hcr : '\r' ∉ t) (c : Cursor) (ms : List Move) :
    execAll S A { b with cursor := c } (ms.map .move) = .ok { b with cursor := stray (lengths S.segs t) c ms } := by
  obtain ⟨s, hs⟩ := h.tri
  have hd := hs.sim.face.data
  obtain rfl := Except.ok.inj (hd.toStr.symm.trans ht)
  exact moves_stray S A hd hcr ms c

/-- **C117.** A key that is pressed while the cursor is not in the text either brings it back or does nothing at all, and it brings it back exactly in the cases of `rescues`. -/
theorem C117_key (b : Buf) (d : Doc) (h : Reached S A b d) (t : Text) (ht : b.data.toStr = .ok t) (hcr : '\r' ∉ t) (c : Cursor)
    (hc : b.data.inBounds S c.position = .ok false) (m : Move) :
    ∃ c', exec S A { b with cursor := c } (.move m) = .ok { b with cursor := c' } ∧
      b.data.inBounds S c'.position = .ok (rescues (lengths S.segs t) c.position m) ∧ (rescues (lengths S.segs t) c.position m = false → c' = c) := by
  obtain ⟨s, hs⟩ := h.tri
  have hd := hs.sim.face.data
  obtain rfl := Except.ok.inj (hd.toStr.symm.trans ht)
  rw [hd.inBounds, exists_onPage hcr] at hc
  obtain ⟨h1, h2⟩ := stray1_rescues (lengths_pos (S := S) d.text) (Except.ok.inj hc) m
  refine ⟨_, by simp only [exec, move_stray hd hcr c m, Except.ok_bind']; rfl, ?_, h2⟩
  rw [hd.inBounds, exists_onPage hcr]
  cases hr : rescues (lengths S.segs d.text) c.position m with
  | true => rw [h1 hr]
  | false => rw [h2 hr, Except.ok.inj hc]

/-- **C117.** Two lines or more after the last one, the keys that depend on where the cursor is do nothing, however many are pressed. -/
theorem C117_below (b : Buf) (d : Doc) (h : Reached S A b d) (t : Text) (ht : b.data.toStr = .ok t) (hcr : '\r' ∉ t) (c : Cursor)
    (hl : (splitNl t).length < c.position.line) (ms : List Move) (hm : ∀ m ∈ ms, Relative m) :
    execAll S A { b with cursor := c } (ms.map .move) = .ok { b with cursor := c } := by
  rw [C117_walk S A b d h t ht hcr c ms]
  have hl' : (lengths S.segs t).length < c.position.line := by rw [lengths_length]; exact hl
  have hnone : (lengths S.segs t)[c.position.line]? = none := List.getElem?_eq_none (by omega)
  rw [stray_stuck (lengths_pos (S := S) t)]
  · rw [onPage, hnone]
  · intro m hmm
    have := hm m hmm
    cases m <;> simp only [Relative] at this <;> simp only [rescues, decide_eq_false_iff_not, hnone, Option.map_none] <;> first | omega | simp

/-- **C117.** In a text of one line, two columns or more after its end, the arrow keys do nothing, however many are pressed. -/
theorem C117_beside (b : Buf) (d : Doc) (h : Reached S A b d) (t : Text) (ht : b.data.toStr = .ok t) (hcr : '\r' ∉ t) (hnl : '\n' ∉ t) (c : Cursor)
    (h0 : c.position.line = 0) (ho : (S.segs t).length + 1 < c.position.offset) (ms : List Move) (hm : ∀ m ∈ ms, Arrow m) :
    execAll S A { b with cursor := c } (ms.map .move) = .ok { b with cursor := c } := by
  rw [C117_walk S A b d h t ht hcr c ms]
  have e : lengths S.segs t = [(S.segs t).length] := by rw [lengths, splitNl_no_nl hnl]; rfl
  rw [e, stray_stuck (by simp)]
  · rw [onPage, h0]; simp; omega
  · intro m hmm
    have := hm m hmm
    cases m <;> simp only [Arrow] at this <;> simp [rescues, h0]
    omega

/-- **C117.** From everywhere `move_to_first_line` and then `move_to_start_of_line` lead to the start of the text. -/
theorem C117_home (b : Buf) (d : Doc) (h : Reached S A b d) (t : Text) (ht : b.data.toStr = .ok t) (hcr : '\r' ∉ t) (c : Cursor) :
    execAll S A { b with cursor := c } [.move .firstLine, .move .startOfLine] = .ok { b with cursor := ⟨⟨0, 0⟩, 0⟩ } := by
  refine (C117_walk S A b d h t ht hcr c [.firstLine, .startOfLine]).trans ?_
  have : onPage (lengths S.segs t) ⟨0, 0⟩ = true := onPage_home t 0
  show Except.ok { b with cursor := goTo (lengths S.segs t) _ ⟨0, 0⟩ } = _
  rw [goTo, if_pos this]; rfl

/-! ## Cases -/

/-- Undo leaves the cursor two lines below: none of the six keys helps, and what is typed is lost. -/
private def lostSession (ms : List Move) : R (Text × Cursor) := do
  let b ← execAll Demo.seg Demo.tight (Buf.fromContent Demo.tight 0 (Demo.s "ab"))
    ([.insert (Demo.s "x\ny\nz"), .move .lastLine, .move .endOfLine, .undo] ++ ms.map .move ++ [.insert (Demo.s "!")])
  return (← b.data.toStr, b.cursor)

example : lostSession [.up, .down, .left, .right, .startOfLine, .endOfLine, .up, .up] = .ok (Demo.s "ab", ⟨⟨2, 3⟩, 3⟩) := by decide +kernel

example : lostSession [.up, .lastLine] = .ok (Demo.s "ab!", ⟨⟨0, 2⟩, 2⟩) ∧ lostSession [.up, .firstLine, .startOfLine] = .ok (Demo.s "!ab", ⟨⟨0, 0⟩, 0⟩) := by decide +kernel

/-- One column after the end `move_left` helps, two columns after it it does not. -/
example : stray (lengths Demo.seg.segs (Demo.s "ab")) ⟨⟨0, 3⟩, 7⟩ [.left] = ⟨⟨0, 2⟩, 2⟩ ∧ stray (lengths Demo.seg.segs (Demo.s "ab")) ⟨⟨0, 4⟩, 7⟩ [.left, .left, .up, .down, .right] = ⟨⟨0, 4⟩, 7⟩ := by
  decide +kernel

/-- On an empty last line `move_to_end_of_line` does not help. -/
example : stray (lengths Demo.seg.segs (Demo.s "ab\n")) ⟨⟨1, 4⟩, 4⟩ [.endOfLine] = ⟨⟨1, 4⟩, 4⟩ ∧ stray (lengths Demo.seg.segs (Demo.s "ab\n")) ⟨⟨1, 4⟩, 4⟩ [.up] = ⟨⟨0, 2⟩, 4⟩ ∧
    stray (lengths Demo.seg.segs (Demo.s "ab\n")) ⟨⟨0, 4⟩, 4⟩ [.endOfLine] = ⟨⟨0, 2⟩, 2⟩ := by decide +kernel

end Scribe.Props
