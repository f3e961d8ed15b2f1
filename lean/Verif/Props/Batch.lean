import Verif.Proofs.Batch
import Verif.Props.Ordinary
import Verif.Props.GapBuffer
/-!
# Properties C88 and C89: several edits made for one text; cut and paste

On ordinary text (C49).
-/
namespace Scribe.Props
open Spec Buf
variable {S : Segmenter} {P : Text → Prop}

/-- **C88.** Edits made for one text, applied from the last to the first with the positions they have in that text, give the text with all of them made. -/
theorem C88_backward (hP : Closed S.segs P) (A : Alloc) (b : Buf) (d : Doc) (ps : List Piece) (rest : Text) (h : Reached S A b d)
    (ht : b.data.toStr = .ok (source ps rest)) (hps : Pieces S.segs P ps) (hr : Over S.segs P rest) :
    ∃ b', execAll S A b (backward S.segs [] ps) = .ok b' ∧ b'.data.toStr = .ok (target ps rest) := by
  obtain ⟨s, hs⟩ := h.tri
  have hd : d.text = source ps rest := Except.ok.inj (hs.sim.face.data.toStr.symm.trans ht)
  obtain ⟨m1, m2⟩ := backward_step hP rest hr ps hps [] (by intro c hc; rw [S.segs_nil] at hc; cases hc) d hd
  obtain ⟨b', f1, f2⟩ := hs.execAll (A := A) _ m1
  exact ⟨b', f1, by rw [f2.sim.face.data.toStr, m2]; rfl⟩

/-- C88: so do they from the first to the last, with the positions they have in the text as changed so far. -/
theorem C88_forward (hP : Closed S.segs P) (A : Alloc) (b : Buf) (d : Doc) (ps : List Piece) (rest : Text) (h : Reached S A b d)
    (ht : b.data.toStr = .ok (source ps rest)) (hps : Pieces S.segs P ps) (hr : Over S.segs P rest) :
    ∃ b', execAll S A b (forward S.segs [] ps) = .ok b' ∧ b'.data.toStr = .ok (target ps rest) := by
  obtain ⟨s, hs⟩ := h.tri
  have hd : d.text = source ps rest := Except.ok.inj (hs.sim.face.data.toStr.symm.trans ht)
  obtain ⟨m1, m2⟩ := forward_step hP rest hr ps hps [] (by intro c hc; rw [S.segs_nil] at hc; cases hc) d hd
  obtain ⟨b', f1, f2⟩ := hs.execAll (A := A) _ m1
  exact ⟨b', f1, by rw [f2.sim.face.data.toStr, m2]; rfl⟩

theorem steps_grouped (segs) (d : Doc) (cs : List Cmd) :
    (d.steps segs (.startGroup :: cs ++ [.endGroup])).text = ((d.step segs .startGroup).steps segs cs).text := by
  rw [List.cons_append, steps_cons, steps_app, steps_cons, steps_nil]
  generalize (d.step segs .startGroup).steps segs cs = d'
  show d'.endGroup.text = _
  unfold Doc.endGroup Doc.push
  split <;> rfl

/-- C88: done in a group, one undo takes all of them back and one redo makes them again. -/
theorem C88_undo (hP : Closed S.segs P) (A : Alloc) (b : Buf) (d : Doc) (ps : List Piece) (rest : Text) (h : Reached S A b d) (hg : b.group = none)
    (ht : b.data.toStr = .ok (source ps rest)) (hps : Pieces S.segs P ps) (hr : Over S.segs P rest) (hne : ps ≠ []) :
    ∃ b1 b2 b3, execAll S A b (.startGroup :: backward S.segs [] ps ++ [.endGroup]) = .ok b1 ∧ b1.data.toStr = .ok (target ps rest) ∧
      b1.history.previous.length = b.history.previous.length + 1 ∧
      exec S A b1 .undo = .ok b2 ∧ b2.data.toStr = .ok (source ps rest) ∧ exec S A b2 .redo = .ok b3 ∧ b3.data.toStr = .ok (target ps rest) := by
  obtain ⟨s, hs⟩ := h.tri
  have hd : d.text = source ps rest := Except.ok.inj (hs.sim.face.data.toStr.symm.trans ht)
  obtain ⟨m1, m2⟩ := backward_step hP rest hr ps hps [] (by intro c hc; rw [S.segs_nil] at hc; cases hc) (d.step S.segs .startGroup) hd
  have hclean : CleanCmds S.segs d (.startGroup :: backward S.segs [] ps ++ [.endGroup]) :=
    ⟨trivial, cleanCmds_app.mpr ⟨m1, trivial, trivial⟩⟩
  obtain ⟨b1, b2, b3, e1, e2, e3, e4, e5, e6⟩ := C16_group_is_one_step S A b d _ h hg hclean (backward_inGroup _ _ _).1 ((backward_inGroup _ _ _).2 hne)
  have hdat : b1.data.toStr = .ok (target ps rest) := by
    obtain ⟨b1', f1, f2⟩ := hs.execAll (A := A) _ hclean
    obtain rfl := Except.ok.inj (f1.symm.trans e1)
    rw [f2.sim.face.data.toStr, steps_grouped, m2]; rfl
  exact ⟨b1, b2, b3, e1, hdat, e2, e3, by rw [e4, ht], e5, by rw [e6, hdat]⟩

/-- **C89.** Cutting `s` and pasting it at any place of what remains moves it there; `read` of the range gave `s`; in a group, one undo takes both back.
Pasted where it was, the text is as before. -/
theorem C89_cut_paste (hP : Closed S.segs P) (A : Alloc) (b : Buf) (d : Doc) (x s y z w : Text) (h : Reached S A b d)
    (ht : b.data.toStr = .ok (x ++ s ++ y)) (hx : Over S.segs P x) (hs : Over S.segs P s) (hy : Over S.segs P y) (hz : Over S.segs P z)
    (hw : Over S.segs P w) (he : x ++ y = z ++ w) :
    b.data.read S (Range.new (endPos (S.segs x)) (endPos (S.segs (x ++ s)))) = .ok (some s) ∧
    (∃ b', execAll S A b (cutPaste S.segs x s z) = .ok b' ∧ b'.data.toStr = .ok (z ++ s ++ w)) ∧
    (b.group = none → ∃ b1 b2 b3, execAll S A b (.startGroup :: cutPaste S.segs x s z ++ [.endGroup]) = .ok b1 ∧ b1.data.toStr = .ok (z ++ s ++ w) ∧
      exec S A b1 .undo = .ok b2 ∧ b2.data.toStr = .ok (x ++ s ++ y) ∧ exec S A b2 .redo = .ok b3 ∧ b3.data.toStr = .ok (z ++ s ++ w)) := by
  obtain ⟨sn, hsn⟩ := h.tri
  have hd : d.text = x ++ s ++ y := Except.ok.inj (hsn.sim.face.data.toStr.symm.trans ht)
  have hxs := over_app hP hx hs
  refine ⟨?_, ?_, ?_⟩
  · have s1 : S.segs d.text = S.segs (x ++ s) ++ S.segs y := by rw [hd, over_append hP hxs hy]
    have s2 : S.segs d.text = S.segs x ++ (S.segs s ++ S.segs y) := by rw [s1, over_append hP hx hs, List.append_assoc]
    have hle : AtOrBefore (endPos (S.segs x)) (endPos (S.segs (x ++ s))) := by
      rw [over_append hP hx hs]; exact endPos_le_append _ _
    obtain ⟨m, e1, e2, _⟩ := (C07_read S b.data d.text _ _ hle hsn.sim.face.data).1 x (s ++ y) (x ++ s) y
      (placeIn_iff.mpr ⟨_, _, by rw [s2, locate_append], by simp [S.join], by simp [S.join]⟩)
      (placeIn_iff.mpr ⟨_, _, by rw [s1, locate_append], by simp [S.join], by simp [S.join]⟩)
    obtain rfl := List.append_cancel_left e2
    exact e1
  · obtain ⟨m1, m2⟩ := cut_step hP hd hx hs hy hz hw hs he
    obtain ⟨b', f1, f2⟩ := hsn.execAll (A := A) _ m1
    exact ⟨b', f1, by rw [f2.sim.face.data.toStr, m2]⟩
  · intro hg
    obtain ⟨m1, m2⟩ := cut_step (d := d.step S.segs .startGroup) hP hd hx hs hy hz hw hs he
    have hclean : CleanCmds S.segs d (.startGroup :: cutPaste S.segs x s z ++ [.endGroup]) :=
      ⟨trivial, cleanCmds_app.mpr ⟨m1, trivial, trivial⟩⟩
    obtain ⟨b1, b2, b3, e1, _, e3, e4, e5, e6⟩ := C16_group_is_one_step S A b d (cutPaste S.segs x s z) h hg hclean
      (by
        intro c hc
        simp only [cutPaste, List.mem_cons, List.not_mem_nil, or_false] at hc
        rcases hc with rfl | rfl | rfl <;> trivial)
      ⟨.insert s, by simp [cutPaste], trivial⟩
    have hdat : b1.data.toStr = .ok (z ++ s ++ w) := by
      obtain ⟨b1', f1, f2⟩ := hsn.execAll (A := A) _ hclean
      obtain rfl := Except.ok.inj (f1.symm.trans e1)
      rw [f2.sim.face.data.toStr, steps_grouped]
      exact congrArg Except.ok m2
    exact ⟨b1, b2, b3, e1, hdat, e3, by rw [e4, ht], e5, by rw [e6, hdat]⟩

/-- Three edits, one over two lines, one only an insertion, with a two-byte character before them. -/
private abbrev demo : List Piece := [⟨Demo.s "é", Demo.s "a\nb", Demo.s "x"⟩, ⟨Demo.s "c", [], Demo.s "\n "⟩, ⟨Demo.s "d", Demo.s "e", []⟩]
example : source demo (Demo.s "f") = Demo.s "éa\nbcdef" ∧ target demo (Demo.s "f") = Demo.s "éxc\n df" := by decide +kernel
example : (do
    let b := Buf.fromContent Demo.tight 0 (Demo.s "éa\nbcdef")
    let b1 ← execAll Demo.seg Demo.tight b (.startGroup :: backward Demo.seg.segs [] demo ++ [.endGroup])
    let b2 ← execAll Demo.seg Demo.tight b (forward Demo.seg.segs [] demo)
    let u ← exec Demo.seg Demo.tight b1 .undo
    return (← b1.data.toStr, ← b2.data.toStr, ← u.data.toStr)) =
    Except.ok (ε := Panic) (Demo.s "éxc\n df", Demo.s "éxc\n df", Demo.s "éa\nbcdef") := by decide +kernel

/-- The order matters: from the first to the last with the positions of the text they are for, the edits land elsewhere. -/
example : (do
    let b := Buf.fromContent Demo.tight 0 (Demo.s "abc")
    let b ← execAll Demo.seg Demo.tight b (swap Demo.seg.segs [] (Demo.s "a") (Demo.s "xyz") ++ swap Demo.seg.segs (Demo.s "a") (Demo.s "b") [])
    b.data.toStr) = .ok (Demo.s "xzbc") := by decide +kernel

/-- A line cut and pasted before the one above it. -/
example : (do
    let b := Buf.fromContent Demo.tight 0 (Demo.s "é\nab\n")
    let r ← b.data.read Demo.seg (Range.new ⟨1, 0⟩ ⟨2, 0⟩)
    let b ← execAll Demo.seg Demo.tight b (cutPaste Demo.seg.segs (Demo.s "é\n") (Demo.s "ab\n") [])
    return (r, ← b.data.toStr)) = Except.ok (ε := Panic) (some (Demo.s "ab\n"), Demo.s "ab\né\n") := by decide +kernel

end Scribe.Props
