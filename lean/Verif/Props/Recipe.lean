import Verif.Proofs.Recipe
import Verif.Demo
/-!
# Property C68: the buffer under every sequence of calls

No condition on the calls. The document of `Verif/Spec/Recipe.lean` says what undo and redo really do.
-/
namespace Scribe.Props
open Spec Buf

/-- **C68.** Whatever is called, in whatever order, on a buffer: it behaves as the document of recipes. Contents, cursor and sticky
column, callback log, whether it is modified, the number of steps to undo and to redo, and the existence of every position are those of the document. -/
theorem C68_recipes (S : Segmenter) (A : Alloc) (k : Nat) (t : Option Text) (cs : List Cmd) :
    let b0 := match t with | some t => Buf.fromContent A k t | none => Buf.new A k
    let d := (ZDoc.new A.grant k (t.getD []) t.isSome).steps S.segs A.grant cs
    ∃ b, execAll S A b0 cs = .ok b ∧ b.data.toStr = .ok d.zip.text ∧ b.cursor = d.cursor ∧ b.log = d.log ∧
      b.modified = decide (d.mark ≠ some d.undo.length) ∧
      b.history.previous.length = d.undo.length ∧ b.history.next.length = d.redo.length ∧
      ∀ p, b.data.inBounds S p = .ok (d.zip.has S.segs p) := by
  intro b0 d
  have h0 : ZSim b0 (ZDoc.new A.grant k (t.getD []) t.isSome) := by
    cases t with
    | none => exact ZSim.new k
    | some t => exact ZSim.fromContent k t
  have hs : Sane b0 := by
    cases t with
    | none => exact sane_new k
    | some t => exact sane_fromContent k t
  obtain ⟨b, h1, h2⟩ := h0.steps (S := S) cs hs
  refine ⟨b, h1, h2.data.rep.toStr, h2.cursor, h2.log.symm, ?_, ?_, ?_, ?_⟩
  · have e1 := h2.mark
    have e2 := h2.undo
    show (!b.history.atMark) = decide (d.mark ≠ some d.undo.length)
    rw [show d.mark = b.history.mark from e1, show d.undo = _ from e2, List.length_map]
    unfold History.atMark
    cases b.history.mark with
    | none => rfl
    | some m =>
      by_cases hm : b.history.previous.length = m
      · subst hm; simp
      · have : ¬ (m = b.history.previous.length) := fun h => hm h.symm
        simp [hm, this]
  · rw [show d.undo = _ from h2.undo, List.length_map]
  · rw [show d.redo = _ from h2.redo, List.length_map]
  · intro p; exact GapBuffer.inBounds_rep h2.data.rep p

/-- A session with a CRLF insertion, a clipped deletion, undo of both, and redo inside a group. Undoing the insertion removes `cd` as
well, undoing the deletion brings nothing back, and the cursor is left on a line that does not exist. -/
example :
    let cs : List Cmd := [.setCallback true, .move .lastLine, .insert (Demo.s "x\r\ny"), .undo, .deleteRange ⟨0, 1⟩ ⟨0, 9⟩, .undo,
      .startGroup, .insert (Demo.s "z"), .redo, .endGroup, .undo]
    let d := (ZDoc.new Demo.tight.grant 0 (Demo.s "ab\ncd") true).steps Demo.seg.segs Demo.tight.grant cs
    (execAll Demo.seg Demo.tight (Buf.fromContent Demo.tight 0 (Demo.s "ab\ncd")) cs >>= fun b => b.data.toStr) = .ok d.zip.text ∧
    d.zip.text = Demo.s "a" ∧ d.cursor.position = ⟨1, 0⟩ ∧ d.zip.has Demo.seg.segs ⟨1, 0⟩ = false ∧ d.log.length = 6 := by
  decide +kernel

end Scribe.Props
