import Verif.Proofs.Walk
import Verif.Props.History
/-!
# C112: walking through a text
-/
namespace Scribe.Props
open Spec Buf Cursor
variable (S : Segmenter) (A : Alloc)

theorem moves_walk {b : Buf} {t : Text} (h : Holds S b.data t) (hcr : '\r' ∉ t) (ms : List Move) : ∀ c, onPage (lengths S.segs t) c.position = true →
    execAll S A { b with cursor := c } (ms.map .move) = .ok { b with cursor := walk (lengths S.segs t) c ms } ∧
      onPage (lengths S.segs t) (walk (lengths S.segs t) c ms).position = true := by
  induction ms with
  | nil => intro c hc; exact ⟨rfl, hc⟩
  | cons m ms ih =>
    intro c hc
    obtain ⟨h1, h2⟩ := move_walk h hcr c hc m
    obtain ⟨h3, h4⟩ := ih _ h2
    refine ⟨?_, h4⟩
    simp only [List.map_cons, execAll, exec, h1, Except.ok_bind']
    exact h3

/-- **C112.** In a text without carriage returns the cursor walks over the lengths of the lines: where any keys take it, and which column is wanted afterwards, is a function of these
lengths and of where it was. Nothing else of the buffer changes, and the cursor stays in bounds. -/
theorem C112_walk (b : Buf) (d : Doc) (h : Reached S A b d) (t : Text) (ht : b.data.toStr = .ok t) (hcr : '\r' ∉ t)
    (hb : b.data.inBounds S b.cursor.position = .ok true) (ms : List Move) :
    execAll S A b (ms.map .move) = .ok { b with cursor := walk (lengths S.segs t) b.cursor ms } ∧
      b.data.inBounds S (walk (lengths S.segs t) b.cursor ms).position = .ok true := by
  obtain ⟨s, hs⟩ := h.tri
  have hd := hs.sim.face.data
  obtain rfl := Except.ok.inj (hd.toStr.symm.trans ht)
  rw [hd.inBounds, exists_onPage hcr] at hb ⊢
  obtain ⟨h1, h2⟩ := moves_walk S A hd hcr ms b.cursor (Except.ok.inj hb)
  exact ⟨h1, congrArg _ h2⟩

/-- **C112.** With the arrow keys one gets from everywhere to everywhere. -/
theorem C112_route (b : Buf) (d : Doc) (h : Reached S A b d) (t : Text) (ht : b.data.toStr = .ok t) (hcr : '\r' ∉ t)
    (hb : b.data.inBounds S b.cursor.position = .ok true) (p : Position) (hp : b.data.inBounds S p = .ok true) (ups lefts : Nat)
    (hu : b.cursor.position.line ≤ ups) (hl : (lengths S.segs t).getD p.line 0 ≤ lefts) :
    ∃ c, execAll S A b ((route ups lefts p).map .move) = .ok { b with cursor := c } ∧ c.position = p := by
  refine ⟨_, (C112_walk S A b d h t ht hcr hb _).1, ?_⟩
  obtain ⟨s, hs⟩ := h.tri
  have hd := hs.sim.face.data
  obtain rfl := Except.ok.inj (hd.toStr.symm.trans ht)
  rw [hd.inBounds, exists_onPage hcr] at hb hp
  exact walk_route (Except.ok.inj hb) (Except.ok.inj hp) hu hl

/-- **C112.** Where the same keys lead from the same place in two texts differs only if the lengths of lines differ. -/
theorem C112_lengths (b b' : Buf) (d d' : Doc) (h : Reached S A b d) (h' : Reached S A b' d') (t t' : Text) (ht : b.data.toStr = .ok t) (ht' : b'.data.toStr = .ok t')
    (hcr : '\r' ∉ t) (hcr' : '\r' ∉ t') (hb : b.data.inBounds S b.cursor.position = .ok true) (hc : b'.cursor = b.cursor)
    (hl : (splitNl t).map (fun l => (S.segs l).length) = (splitNl t').map fun l => (S.segs l).length) (ms : List Move) :
    ∃ c, execAll S A b (ms.map .move) = .ok { b with cursor := c } ∧ execAll S A b' (ms.map .move) = .ok { b' with cursor := c } := by
  refine ⟨_, (C112_walk S A b d h t ht hcr hb ms).1, ?_⟩
  have hb' : b'.data.inBounds S b'.cursor.position = .ok true := by
    obtain ⟨s, hs⟩ := h.tri
    have hd := hs.sim.face.data
    obtain ⟨s', hs'⟩ := h'.tri
    have hd' := hs'.sim.face.data
    obtain rfl := Except.ok.inj (hd.toStr.symm.trans ht)
    obtain rfl := Except.ok.inj (hd'.toStr.symm.trans ht')
    rw [hd.inBounds, exists_onPage hcr] at hb
    rw [hd'.inBounds, exists_onPage hcr', hc, ← show lengths S.segs d.text = lengths S.segs d'.text from hl]
    exact hb
  have := (C112_walk S A b' d' h' t' ht' hcr' hb' ms).1
  rw [this, hc, show lengths S.segs t = lengths S.segs t' from hl]

/-! ## Cases -/

private def demoWalk (t : String) (ms : List Move) : R Cursor := do
  let b ← execAll Demo.seg Demo.tight (Buf.fromContent Demo.tight 0 (Demo.s t)) (ms.map .move)
  return b.cursor

example : lengths Demo.seg.segs (Demo.s "abcd\né\nxyz\n") = [4, 1, 3, 0] := by decide +kernel

/-- Up and down keep the column that is wanted; going to the first or last line forgets it. -/
example : demoWalk "abcd\né\nxyz\n" [.endOfLine, .down, .down, .down, .up, .up, .up] = .ok ⟨⟨0, 4⟩, 4⟩ ∧
    demoWalk "abcd\né\nxyz\n" [.endOfLine, .lastLine, .up] = .ok ⟨⟨2, 0⟩, 0⟩ := by decide +kernel

/-- `move_left` at the start of a line and `move_to_end_of_line` on an empty last line do not change the column that is wanted; `move_to_start_of_line` does, and so does
`move_to_end_of_line` on an empty line elsewhere. -/
example : demoWalk "abcd\n\nxyz\n" [.endOfLine, .down, .left, .down] = .ok ⟨⟨2, 3⟩, 4⟩ ∧ demoWalk "abcd\n\nxyz\n" [.endOfLine, .down, .startOfLine, .down] = .ok ⟨⟨2, 0⟩, 0⟩ ∧
    demoWalk "abcd\n\nxyz\n" [.endOfLine, .down, .endOfLine, .down] = .ok ⟨⟨2, 0⟩, 0⟩ ∧
    demoWalk "abcd\n\nxyz\n" [.endOfLine, .down, .down, .down, .endOfLine, .up] = .ok ⟨⟨2, 3⟩, 4⟩ := by decide +kernel

/-- A route. -/
example : demoWalk "abcd\né\nxyz\n" ([.lastLine] ++ route 3 3 ⟨2, 2⟩) = .ok ⟨⟨2, 2⟩, 2⟩ := by decide +kernel

end Scribe.Props
