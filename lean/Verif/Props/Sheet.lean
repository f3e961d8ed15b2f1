import Verif.Proofs.Sheet
import Verif.Props.Ordinary
import Verif.Props.Buffer
import Verif.Props.Typing
/-!
# Property C92: a buffer is a list of lines
-/
namespace Scribe.Props
open Spec Buf
variable {S : Segmenter} {P : Text → Prop}

/-- **C92.** In any session on ordinary text (C49) the buffer behaves as an editor of lines, which has a list of rows of clusters, pages before and after each edit
to undo, and no strings, searches or gaps: no call panics, and contents, cursor, `modified`, number of lines, positions and ranges read are those of the page. -/
theorem C92_lines (hP : Closed S.segs P) (hcr : ∀ c, P c → '\r' ∉ c) (A : Alloc) (b0 : Buf) (d0 : Doc) (t0 : Text) (cs : List Cmd)
    (h0 : Start A b0 d0 t0) (ht : Over S.segs P t0) (hc : (LineEditor.new (rows (S.segs t0)) (!b0.modified)).FitAll S.segs P cs) (s : LineEditor)
    (hs : s = (LineEditor.new (rows (S.segs t0)) (!b0.modified)).steps S.segs cs) :
    ∃ b, execAll S A b0 cs = .ok b ∧ b.data.toStr = .ok s.page.text ∧ b.cursor = s.cursor ∧ b.modified = s.modified ∧
      b.lineCount = .ok s.page.length ∧ (∀ p, b.data.inBounds S p = .ok (s.page.has p)) ∧
      (∀ p q, AtOrBefore p q → b.data.read S (Range.new p q) = .ok ((s.page.between p q).map Page.text)) ∧
      (∀ r ∈ s.page, ∀ c ∈ r, P c ∧ '\n' ∉ c) := by
  have e0 : sheetOf S.segs d0 = LineEditor.new (rows (S.segs t0)) (!b0.modified) := by
    cases h0 with
    | new k => rfl
    | load k t => rfl
  rw [← e0] at hc hs
  obtain ⟨k1, k2, k3⟩ := sheet_steps hP hcr cs (h0.over ht) hc
  rw [← k3] at hs
  obtain ⟨b, h1, h2⟩ := (h0.tri (S := S)).execAll (A := A) cs k1
  generalize d0.steps S.segs cs = d at *
  have hd := h2.sim.face.data
  have hpage : s.page = rows (S.segs d.text) := by rw [hs]; rfl
  have hn := over_noCr hcr k2.text
  refine ⟨b, h1, ?_, ?_, ?_, ?_, ?_, ?_, ?_⟩
  · rw [hpage, text_rows, hd.toStr]
  · rw [h2.sim.face.cursor, hs]; rfl
  · have hl := h2.sim.undo.length_eq
    unfold modified History.atMark LineEditor.modified
    rw [h2.sim.mark, hs, hl]
    simp only [sheetOf, List.length_map]
    cases hm : d.mark with
    | none => rfl
    | some m => simp [bne, Bool.beq_comm]
  · rw [(C31_line_count b d.text hd.toStr).2, hpage, rows_splitNl hn, List.length_map]
  · intro p; rw [hd.inBounds, hpage, exists_rows]
  · intro p q hpq
    have := hd.read (Range.new p q) (range_new_ok p q)
    rw [range_new_of_le hpq] at this ⊢
    rw [this, hpage, read_rows _ _ _ hpq]
  · intro r hr c hcr'
    rw [hpage] at hr
    have hm := mem_rows _ r hr c hcr'
    refine ⟨k2.text c hm, fun hnl => ?_⟩
    rcases S.newline _ c hm hnl with rfl | rfl
    · exact rows_clean _ r hr hcr'
    · exact hP.noCrlf (k2.text _ hm)

/-- A session with a group, an undo, a save and a movement to a shorter line. -/
example : (LineEditor.new (rows (Demo.seg.segs (Demo.s "abc\nd"))) true).steps Demo.seg.segs
    [.move .endOfLine, .insert (Demo.s "x\ny"), .startGroup, .delete, .deleteRange ⟨0, 1⟩ ⟨1, 1⟩, .endGroup, .undo, .move .down, .saved] =
    { page := [[Demo.s "a", Demo.s "b", Demo.s "c", Demo.s "x"], [Demo.s "y"], [Demo.s "d"]], cursor := ⟨⟨1, 1⟩, 3⟩,
      undo := [[⟨[[Demo.s "a", Demo.s "b", Demo.s "c"], [Demo.s "d"]],
        [[Demo.s "a", Demo.s "b", Demo.s "c", Demo.s "x"], [Demo.s "y"], [Demo.s "d"]], false⟩]],
      redo := [[⟨[[Demo.s "a", Demo.s "b", Demo.s "c", Demo.s "x"], [Demo.s "y"], [Demo.s "d"]],
          [[Demo.s "a", Demo.s "b", Demo.s "c"], [Demo.s "y"], [Demo.s "d"]], false⟩,
        ⟨[[Demo.s "a", Demo.s "b", Demo.s "c"], [Demo.s "y"], [Demo.s "d"]], [[Demo.s "a"], [Demo.s "d"]], false⟩]],
      group := none, mark := some 1 } := by decide +kernel
example : (execAll Demo.seg Demo.tight (Buf.fromContent Demo.tight 0 (Demo.s "abc\nd"))
    [.move .endOfLine, .insert (Demo.s "x\ny"), .startGroup, .delete, .deleteRange ⟨0, 1⟩ ⟨1, 1⟩, .endGroup, .undo, .move .down, .saved] >>=
    fun b => do return (← b.data.toStr, b.cursor, b.modified)) = .ok (Demo.s "abcx\ny\nd", ⟨⟨1, 1⟩, 3⟩, false) := by decide +kernel

/-- The calls of that session fit. -/
example : (LineEditor.new (rows (Demo.seg.segs (Demo.s "abc\nd"))) true).FitAll Demo.seg.segs (Uax29.Ordinary Demo.table.cls)
    [.move .endOfLine, .insert (Demo.s "x\ny"), .startGroup, .delete, .deleteRange ⟨0, 1⟩ ⟨1, 1⟩, .endGroup, .undo, .move .down, .saved] := by
  refine ⟨trivial, ?_, trivial, trivial, Or.inl ?_, trivial, trivial, trivial, trivial, trivial⟩
  · show ∀ c ∈ Demo.seg.segs (Demo.s "x\ny"), Uax29.Ordinary Demo.table.cls c
    decide +kernel
  · decide +kernel

/-- **C93.** Edits each within one line, of ordinary text without newlines (in each case: go to a place, remove some clusters, put others there). Each line of the
result is what the edits for that line make of it, in their order: edits of other lines do not matter. -/
theorem C93_by_line (hP : Closed S.segs P) (A : Alloc) (b : Buf) (d : Doc) (t : Text) (es : List RowEdit) (h : Reached S A b d) (ht : b.data.toStr = .ok t)
    (hov : Over S.segs P t) (hs : ∀ e ∈ es, Over S.segs P e.put ∧ '\n' ∉ e.put) (hl : ∀ e ∈ es, e.line < (rows (S.segs t)).length)
    (ha : ∀ i r, (rows (S.segs t))[i]? = some r → RowEdit.Allowed S.segs r (RowEdit.ofLine es i)) :
    ∃ b', execAll S A b (es.flatMap RowEdit.calls) = .ok b' ∧
      b'.data.toStr = .ok (Page.text ((rows (S.segs t)).mapIdx fun i r => (RowEdit.ofLine es i).foldl (RowEdit.on S.segs) r)) := by
  obtain ⟨s, hs'⟩ := h.tri
  obtain rfl := Except.ok.inj (hs'.sim.face.data.toStr.symm.trans ht)
  obtain ⟨k1, k2⟩ := rowEdits hP es hov hs hl ha
  obtain ⟨b', e1, e2⟩ := hs'.execAll (A := A) _ k1
  exact ⟨b', e1, by rw [e2.sim.face.data.toStr, ← k2, text_rows]⟩

/-- **C93.** So two such sessions with the same edits for each line, in the same order within each line, give the same contents, however the lines are interleaved. -/
theorem C93_interleaving (hP : Closed S.segs P) (A A' : Alloc) (b b' : Buf) (d d' : Doc) (t : Text) (es es' : List RowEdit) (h : Reached S A b d)
    (h' : Reached S A' b' d') (ht : b.data.toStr = .ok t) (ht' : b'.data.toStr = .ok t)
    (hov : Over S.segs P t) (hs : ∀ e ∈ es, Over S.segs P e.put ∧ '\n' ∉ e.put) (hl : ∀ e ∈ es, e.line < (rows (S.segs t)).length)
    (ha : ∀ i r, (rows (S.segs t))[i]? = some r → RowEdit.Allowed S.segs r (RowEdit.ofLine es i)) (hes : ∀ i, RowEdit.ofLine es' i = RowEdit.ofLine es i) :
    ∃ b1 b1', execAll S A b (es.flatMap RowEdit.calls) = .ok b1 ∧ execAll S A' b' (es'.flatMap RowEdit.calls) = .ok b1' ∧
      b1.data.toStr = b1'.data.toStr := by
  have hmem : ∀ e ∈ es', e ∈ es := by
    intro e he
    have : e ∈ RowEdit.ofLine es' e.line := List.mem_filter.mpr ⟨he, by simp⟩
    rw [hes] at this
    exact (List.mem_filter.mp this).1
  obtain ⟨b1, e1, e2⟩ := C93_by_line hP A b d t es h ht hov hs hl ha
  obtain ⟨b2, f1, f2⟩ := C93_by_line hP A' b' d' t es' h' ht' hov (fun e he => hs e (hmem e he)) (fun e he => hl e (hmem e he))
    (fun i r hr => by rw [hes]; exact ha i r hr)
  refine ⟨b1, b2, e1, f1, ?_⟩
  rw [e2, f2]
  simp only [hes]

/-- Two lines edited in turns, and one after the other. -/
example : (execAll Demo.seg Demo.tight (Buf.fromContent Demo.tight 0 (Demo.s "ab\ncd"))
      ([⟨0, 1, 1, Demo.s "xy"⟩, ⟨1, 0, 1, []⟩, ⟨0, 0, 2, []⟩, ⟨1, 1, 0, Demo.s "é"⟩].flatMap RowEdit.calls) >>= fun b => b.data.toStr) = .ok (Demo.s "y\ndé") ∧
    (execAll Demo.seg Demo.tight (Buf.fromContent Demo.tight 0 (Demo.s "ab\ncd"))
      ([⟨1, 0, 1, []⟩, ⟨1, 1, 0, Demo.s "é"⟩, ⟨0, 1, 1, Demo.s "xy"⟩, ⟨0, 0, 2, []⟩].flatMap RowEdit.calls) >>= fun b => b.data.toStr) = .ok (Demo.s "y\ndé") := by
  decide +kernel
example : RowEdit.Allowed Demo.seg.segs [Demo.s "a", Demo.s "b"]
    (RowEdit.ofLine [⟨0, 1, 1, Demo.s "xy"⟩, ⟨1, 0, 1, []⟩, ⟨0, 0, 2, []⟩, ⟨1, 1, 0, Demo.s "é"⟩] 0) := by decide +kernel

end Scribe.Props
