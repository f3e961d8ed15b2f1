import Verif.Proofs.Splice
import Verif.Props.Block
/-!
# C115: replacing lines by other lines
-/
namespace Scribe.Props
open Spec Buf
variable {S : Segmenter} {P : Text → Prop}

theorem text_spliced {t : Text} (hcr : '\r' ∉ t) {s : Text} (hcs : '\r' ∉ s) (i j : Nat) :
    Page.text ((rows (S.segs t)).take i ++ rows (S.segs s) ++ (rows (S.segs t)).drop (j + 1)) = unlines (spliced (splitNl t) i j (splitNl s)) := by
  rw [rows_splitNl hcr, rows_splitNl hcs, Page.text, unlines, spliced]
  congr 1
  simp only [List.map_append, ← List.map_take, ← List.map_drop, List.map_map]
  have : (List.flatten ∘ S.segs) = id := by funext l; exact S.join l
  simp only [this, List.map_id]

/-- **C115.** Deleting from the start of line `i` to the end of line `j` and inserting a string there, as one group: the lines of the string stand in place of these, all other lines are
as before, and the cursor is at the start of the first. One undo takes it back and one redo makes it again. -/
theorem C115_replace (hP : Closed S.segs P) (A : Alloc) (b : Buf) (d : Doc) (h : Reached S A b d) (hg : b.group = none) (t : Text) (ht : b.data.toStr = .ok t)
    (hov : Over S.segs P t) (hcr : '\r' ∉ t) (s : Text) (hs : Over S.segs P s) (hcs : '\r' ∉ s) (i j : Nat) (hij : i ≤ j) (last : Text) (hj : (splitNl t)[j]? = some last) :
    ∃ b1 b2 b3, execAll S A b (asGroup (spliceCalls i j (S.segs last).length s)) = .ok b1 ∧ b1.data.toStr = .ok (unlines (spliced (splitNl t) i j (splitNl s))) ∧
      b1.cursor = ⟨⟨i, 0⟩, 0⟩ ∧ b1.history.previous.length = b.history.previous.length + 1 ∧ exec S A b1 .undo = .ok b2 ∧ b2.data.toStr = .ok t ∧
      exec S A b2 .redo = .ok b3 ∧ b3.data.toStr = .ok (unlines (spliced (splitNl t) i j (splitNl s))) := by
  obtain ⟨s', hs'⟩ := h.tri
  obtain rfl := Except.ok.inj (hs'.sim.face.data.toStr.symm.trans ht)
  have e0 := startGroup_text (S := S) d
  obtain ⟨k1, -, k2, k3⟩ := splice_steps hP (d := d.step S.segs .startGroup) (by rw [e0]; exact hov) (i := i) (j := j) (y := S.segs last) hij
    (by rw [e0, rows_splitNl hcr, List.getElem?_map, hj]; rfl) hs
  have hc := asGroup_clean k1
  obtain ⟨b1, b2, b3, h1, h2, h3, h4, h5, h6, h7⟩ := group_result A b d (spliceCalls i j (S.segs last).length s) h hg hc (by
      intro c hc
      simp only [spliceCalls, List.mem_cons, List.not_mem_nil, or_false] at hc
      rcases hc with rfl | rfl | rfl <;> trivial)
    ⟨.insert s, by simp [spliceCalls], trivial⟩
    (unlines (spliced (splitNl d.text) i j (splitNl s))) (by
      rw [asGroup_text, ← text_rows (S := S) ((d.step S.segs .startGroup).steps S.segs (spliceCalls i j (S.segs last).length s)).text, k2, e0]
      exact text_spliced hcr hcs i j)
  refine ⟨b1, b2, b3, h1, h2, ?_, h3, h4, h5.trans ht, h6, h7⟩
  obtain ⟨b', e1, e2⟩ := hs'.execAll (A := A) _ hc
  rw [h1] at e1
  cases e1
  rw [e2.sim.face.cursor]
  rw [show d.steps S.segs (asGroup (spliceCalls i j (S.segs last).length s)) =
    ((d.step S.segs .startGroup).steps S.segs (spliceCalls i j (S.segs last).length s)).step S.segs .endGroup from rfl, ← k3]
  generalize (d.step S.segs .startGroup).steps S.segs (spliceCalls i j (S.segs last).length s) = x
  simp only [Doc.step, Doc.endGroup]
  split <;> rfl

/-- **C115.** Putting lines of the text in place of others, in any order and as often as wanted (doubling, moving, sorting lines, dropping repeated ones): no more is asked of them than
that the text is ordinary. If they are the same lines in another order, the lines of the result are those of the text in another order. -/
theorem C115_rearrange (hP : Closed S.segs P) (hnl : P ['\n']) (A : Alloc) (b : Buf) (d : Doc) (h : Reached S A b d) (hg : b.group = none) (t : Text) (ht : b.data.toStr = .ok t)
    (hov : Over S.segs P t) (hcr : '\r' ∉ t) (new : List Text) (hne : new ≠ []) (hm : ∀ l ∈ new, l ∈ splitNl t) (i j : Nat) (hij : i ≤ j) (last : Text)
    (hj : (splitNl t)[j]? = some last) :
    ∃ b1 b2 u, execAll S A b (asGroup (spliceCalls i j (S.segs last).length (unlines new))) = .ok b1 ∧ b1.data.toStr = .ok u ∧ splitNl u = spliced (splitNl t) i j new ∧
      exec S A b1 .undo = .ok b2 ∧ b2.data.toStr = .ok t ∧ (new.Perm (((splitNl t).drop i).take (j + 1 - i)) → (splitNl u).Perm (splitNl t)) := by
  obtain ⟨o1, o2⟩ := over_unlines hcr hov hnl hne hm
  obtain ⟨b1, b2, -, h1, h2, -, -, h4, h5, -⟩ := C115_replace hP A b d h hg t ht hov hcr (unlines new) o1 o2 i j hij last hj
  have e1 : splitNl (unlines new) = new := splitNl_unlines hne fun l hl => splitNl_clean t l (hm l hl)
  rw [e1] at h2
  have e2 : splitNl (unlines (spliced (splitNl t) i j new)) = spliced (splitNl t) i j new := by
    refine splitNl_unlines (by simp [spliced, hne]) fun l hl => ?_
    simp only [spliced, List.mem_append] at hl
    rcases hl with (hl | hl) | hl
    · exact splitNl_clean t l (List.mem_of_mem_take hl)
    · exact splitNl_clean t l (hm l hl)
    · exact splitNl_clean t l (List.mem_of_mem_drop hl)
  refine ⟨b1, b2, _, h1, h2, e2, h4, h5, fun hp => ?_⟩
  rw [e2]
  have e3 : splitNl t = (splitNl t).take i ++ ((splitNl t).drop i).take (j + 1 - i) ++ (splitNl t).drop (j + 1) := by
    have : (splitNl t).drop (j + 1) = ((splitNl t).drop i).drop (j + 1 - i) := by rw [List.drop_drop]; congr 1; omega
    rw [this, List.append_assoc, List.take_append_drop, List.take_append_drop]
  conv => rhs; rw [e3]
  exact ((hp.append_left _).append_right _)

/-! ## Cases -/

example : Uax29.Ordinary Demo.table.cls ['\n'] := by decide +kernel

/-- Moving a line down, doubling one, sorting three, joining two. -/
example : (do
    let b := Buf.fromContent Demo.tight 0 (Demo.s "c\né\na\nb")
    let b1 ← execAll Demo.seg Demo.tight b (asGroup (spliceCalls 0 1 1 (unlines [Demo.s "é", Demo.s "c"])))
    let b2 ← execAll Demo.seg Demo.tight b (asGroup (spliceCalls 3 3 1 (unlines [Demo.s "b", Demo.s "b"])))
    let b3 ← execAll Demo.seg Demo.tight b (asGroup (spliceCalls 0 2 1 (unlines [Demo.s "a", Demo.s "c", Demo.s "é"])))
    let b4 ← execAll Demo.seg Demo.tight b (asGroup (spliceCalls 2 3 1 (Demo.s "a b")))
    let b5 ← exec Demo.seg Demo.tight b3 .undo
    return [← b1.data.toStr, ← b2.data.toStr, ← b3.data.toStr, ← b4.data.toStr, ← b5.data.toStr]) =
    .ok [Demo.s "é\nc\na\nb", Demo.s "c\né\na\nb\nb", Demo.s "a\nc\né\nb", Demo.s "c\né\na b", Demo.s "c\né\na\nb"] := by decide +kernel

end Scribe.Props
