import Verif.Spec.BufferReading
import Verif.Proofs.Reading
import Verif.Proofs.Recipe
/-! # The buffer with the counter of what is read -/
namespace Scribe
open Spec Buf GapBuffer
variable {S : Segmenter} {A : Alloc}

theorem Effort.add_nothing (w : Effort) : w + nothing = w := rfl

theorem Effort.nothing_add (w : Effort) : nothing + w = w := by
  cases w; simp only [Effort.add_def, nothing, Nat.zero_add]

theorem GapBuffer.Zips.insertR {g z} (h : Zips g z) (s : Text) (p : Position) (w : Effort) :
    ∃ g', g.insert S A s p = .ok g' ∧ g.insertR S A s p w = .ok (g', w + z.effort S.segs A.grant (.insert s p)) := by
  obtain ⟨o, g', h1, h2⟩ := h.callR (S := S) (A := A) w (.insert s p)
  simp only [GapBuffer.call, GapBuffer.callR] at h1 h2
  obtain ⟨x, hx, hy⟩ := bind_ok h1
  obtain ⟨x', hx', hy'⟩ := bind_ok h2
  cases hy; cases hy'
  exact ⟨g', hx, hx'⟩

theorem GapBuffer.Zips.deleteR {g z} (h : Zips g z) (r : Range) (hr : AtOrBefore r.start r.stop) (w : Effort) :
    ∃ g', g.delete S r = .ok g' ∧ g.deleteR S r w = .ok (g', w + z.effort S.segs A.grant (.delete r.start r.stop)) := by
  obtain ⟨o, g', h1, h2⟩ := h.callR (S := S) (A := A) w (.delete r.start r.stop)
  simp only [GapBuffer.call, GapBuffer.callR, range_new_of_le hr] at h1 h2
  obtain ⟨x, hx, hy⟩ := bind_ok h1
  obtain ⟨x', hx', hy'⟩ := bind_ok h2
  cases hy; cases hy'
  exact ⟨g', hx, hx'⟩

theorem GapBuffer.Zips.readR {g z} (h : Zips g z) (r : Range) (hr : AtOrBefore r.start r.stop) (w : Effort) :
    ∃ t, g.read S r = .ok t ∧ g.readR S r w = .ok (t, w + z.effort S.segs A.grant (.read r.start r.stop)) := by
  obtain ⟨o, g', h1, h2⟩ := h.callR (S := S) (A := A) w (.read r.start r.stop)
  simp only [GapBuffer.call, GapBuffer.callR, range_new_of_le hr] at h1 h2
  obtain ⟨x, hx, hy⟩ := bind_ok h1
  obtain ⟨x', hx', hy'⟩ := bind_ok h2
  obtain ⟨t, w'⟩ := x'
  cases hy; cases hy'
  exact ⟨_, hx, hx'⟩

theorem GapBuffer.Zips.moveToR {g z} (h : Zips g z) (c : Cursor) (p : Position) (w : Effort) :
    Cursor.moveToR S g c p w = .ok ((z.has S.segs p, z.goto S.segs c p), w + z.lookup S.segs p) := by
  unfold Cursor.moveToR GapBuffer.inBoundsR
  rw [h.findOffsetR]
  simp only [Except.ok_bind', Option.isSome_map]
  unfold Zip.goto Zip.has
  simp only [pure_bind]
  cases (locate (z.clusters S.segs) p).isSome <;> rfl

theorem GapBuffer.Zips.toStrR {g z} (h : Zips g z) (w : Effort) : g.toStrR w = .ok (z.text, w + z.whole) := by
  unfold GapBuffer.toStrR
  rw [h.rep.first, h.rep.second]
  simp only [Except.ok_bind', lossy_enc]
  rfl

theorem GapBuffer.Zips.moveToLineR {g z} (h : Zips g z) (c : Cursor) (l : Nat) (w : Effort) :
    Cursor.moveToLineR S g c l w = .ok (z.gotoLine S.segs c l, w + z.overLine S.segs c l) := by
  unfold Cursor.moveToLineR Zip.gotoLine Zip.overLine
  simp only [h.moveToR, h.toStrR, Except.ok_bind']
  cases hb : z.has S.segs ⟨l, c.sticky⟩ with
  | true => simp [Zip.goto, hb]; rfl
  | false =>
    simp only [Bool.not_false, if_true, Bool.false_eq_true, if_false]
    have hl : Cursor.lineEnd S z.text l = z.lineStop S.segs l := rfl
    rw [hl]
    simp only [Zip.goto, hb, Bool.false_eq_true, if_false]
    cases hb2 : z.has S.segs ⟨l, z.lineStop S.segs l⟩ with
    | true => simp only [if_true, Effort.add_assoc]; rfl
    | false => simp only [Bool.false_eq_true, if_false, Effort.add_assoc]; rfl

theorem GapBuffer.Zips.moveR {g z} (h : Zips g z) (c : Cursor) (m : Cursor.Move) (w : Effort) :
    Cursor.moveR S g c w m = .ok (z.moveCursor S.segs c m, w + z.moving S.segs c m) := by
  have hmin : ∀ l n k : Nat, (if n < k then (⟨l, n⟩ : Position) else ⟨l, k⟩) = ⟨l, min k n⟩ := by
    intro l n k; split <;> congr 1 <;> omega
  cases m with
  | «to» p => simp only [Cursor.moveR, h.moveToR, Except.ok_bind']; rfl
  | up =>
    simp only [Cursor.moveR, Cursor.moveUpR, Zip.moveCursor, Zip.moving]
    split
    · rfl
    · rw [subU, if_pos (by omega)]; exact h.moveToLineR c _ w
  | down => exact h.moveToLineR c _ w
  | left =>
    simp only [Cursor.moveR, Cursor.moveLeftR, Zip.moveCursor, Zip.moving]
    split
    · rfl
    · rw [subU, if_pos (by omega)]; simp only [h.moveToR, Except.ok_bind']; rfl
  | right => simp only [Cursor.moveR, Cursor.moveRightR, h.moveToR, Except.ok_bind']; rfl
  | startOfLine => simp only [Cursor.moveR, Cursor.moveToStartOfLineR, h.moveToR, Except.ok_bind']; rfl
  | endOfLine =>
    simp only [Cursor.moveR, Cursor.moveToEndOfLineR, h.toStrR, Except.ok_bind', Zip.moveCursor, Zip.moving, Zip.lineStop]
    cases hl : (strLines z.text)[c.position.line]? with
    | none =>
      have hn : ¬ c.position.line < (strLines z.text).length := by rw [List.getElem?_eq_none_iff] at hl; exact Nat.not_lt.mpr hl
      rw [if_neg hn, if_neg hn]; rfl
    | some l =>
      have hn : c.position.line < (strLines z.text).length := by rw [List.getElem?_eq_some_iff] at hl; exact hl.1
      rw [if_pos hn, if_pos hn]
      simp only [h.moveToR, Except.ok_bind', Effort.add_assoc]; rfl
  | lastLine =>
    simp only [Cursor.moveR, Cursor.moveToLastLineR, h.toStrR, Except.ok_bind', Zip.moveCursor, Zip.moving]
    have := Cursor.lastLine_eq (S.segs z.text) ⟨0, 0⟩
    rw [← endPos_eq_foldl] at this
    simp only [this, hmin, h.moveToR, Except.ok_bind', Effort.add_assoc]; rfl
  | firstLine =>
    simp only [Cursor.moveR, Cursor.moveToFirstLineR, h.toStrR, Except.ok_bind', Zip.moveCursor, Zip.moving, Zip.lineStop, hmin, h.moveToR, Effort.add_assoc]; rfl

theorem ZSim.swapInR {b d} (h : ZSim b d) (t : Text) (w : Effort) :
    ∃ b', replaceContent S A t b = .ok b' ∧ replaceContentR S A t b w = .ok (b', w + d.swapping S.segs A.grant t) := by
  have hn : Zips (GapBuffer.new A b.data.clock t) (Zip.fresh A.grant d.zip.clock t) := by
    rw [h.data.clock]; exact Zips.new _ _
  unfold replaceContent replaceContentR ZDoc.swapping
  rw [h.cursor]
  simp only [hn.moveTo, hn.moveToR, Except.ok_bind']
  cases hb : (Zip.fresh A.grant d.zip.clock t).has S.segs d.cursor.position with
  | true => exact ⟨_, rfl, rfl⟩
  | false => exact ⟨_, rfl, by simp only [Bool.not_false, if_true, Bool.false_eq_true, if_false, Effort.add_assoc]; rfl⟩

theorem ZSim.runOpR {b d} (h : ZSim b d) (op : SOp) (ho : op.Ordered) (w : Effort) :
    ∃ x, Buf.runOp S A b op = .ok x ∧ Buf.runOpR S A b w op = .ok (x, w + d.performing S.segs A.grant op.recipe) := by
  cases op with
  | insert s p =>
    obtain ⟨g', h1, h2⟩ := h.data.insertR (S := S) (A := A) s p w
    exact ⟨_, by simp only [Buf.runOp, h1, Except.ok_bind']; rfl, by simp only [Buf.runOpR, h2, Except.ok_bind']; rfl⟩
  | delete c r =>
    obtain ⟨t, h1, h2⟩ := h.data.readR (S := S) (A := A) r ho w
    obtain ⟨g', h3, h4⟩ := h.data.deleteR (S := S) (A := A) r ho (w + d.zip.effort S.segs A.grant (.read r.start r.stop))
    exact ⟨_, by simp only [Buf.runOp, h1, h3, Except.ok_bind']; rfl, by simp only [Buf.runOpR, h2, h4, Except.ok_bind', Effort.add_assoc]; rfl⟩
  | replace o n =>
    obtain ⟨b', h1, h2⟩ := h.swapInR (S := S) (A := A) n w
    exact ⟨_, by simp only [Buf.runOp, h1, Except.ok_bind']; rfl, by simp only [Buf.runOpR, h2, Except.ok_bind']; rfl⟩

theorem lo_hi_effort (z : Zip) (p q : Position) : (z.effort S.segs A.grant (.delete (lo p q) (hi p q))) = z.effort S.segs A.grant (.delete p q) := by
  have h := lo_le_hi p q
  simp only [Zip.effort]
  rw [lo_of_le h, show hi (lo p q) (hi p q) = hi p q from if_pos h]

theorem ZSim.reverseOpR {b d} (h : ZSim b d) (op : SOp) (w : Effort) :
    ∃ b', Buf.reverseOp S A b op = .ok b' ∧ Buf.reverseOpR S A b w op = .ok (b', w + d.reverting S.segs A.grant op.recipe) := by
  cases op with
  | insert s p =>
    obtain ⟨g', h1, h2⟩ := h.data.deleteR (S := S) (A := A) (Range.new p (putEnd S.segs s p)) (range_new_ok _ _) w
    rw [range_new, lo_hi_effort, ← range_new] at h2
    exact ⟨_, by simp only [Buf.reverseOp, insertEnd_putEnd, h1, Except.ok_bind']; rfl, by simp only [Buf.reverseOpR, insertEnd_putEnd, h2, Except.ok_bind']; rfl⟩
  | delete c r =>
    cases c with
    | none => exact ⟨_, rfl, rfl⟩
    | some c =>
      obtain ⟨g', h1, h2⟩ := h.data.insertR (S := S) (A := A) c r.start w
      exact ⟨_, by simp only [Buf.reverseOp, h1, Except.ok_bind']; rfl, by simp only [Buf.reverseOpR, h2, Except.ok_bind']; rfl⟩
  | replace o n => exact h.swapInR o w

theorem ZSim.runAllR (ops : List SOp) {b d} (h : ZSim b d) (ho : ∀ op ∈ ops, op.Ordered) (w : Effort) :
    ∃ b', Buf.runAll S A b ops = .ok b' ∧ Buf.runAllR S A b w ops = .ok (b', w + d.performingAll S.segs A.grant (ops.map SOp.recipe)) := by
  induction ops generalizing b d w with
  | nil => exact ⟨b, rfl, rfl⟩
  | cons op ops ih =>
    obtain ⟨⟨b1, op1⟩, h1, h2⟩ := h.runOpR (S := S) (A := A) op (ho op (by simp)) w
    obtain ⟨b1', op', h3, h4, -⟩ := h.runOp (S := S) (A := A) op (ho op (by simp))
    rw [h1] at h3; cases h3
    obtain ⟨b2, h5, h6⟩ := ih h4 (fun o h => ho o (by simp [h])) (w + d.performing S.segs A.grant op.recipe)
    exact ⟨b2, by simp only [Buf.runAll, h1, Except.ok_bind', h5], by simp only [Buf.runAllR, h2, Except.ok_bind', h6, Effort.add_assoc]; rfl⟩

theorem ZSim.reverseAllR (ops : List SOp) {b d} (h : ZSim b d) (w : Effort) :
    ∃ b', Buf.reverseAll S A b ops = .ok b' ∧ Buf.reverseAllR S A b w ops = .ok (b', w + d.revertingAll S.segs A.grant (ops.map SOp.recipe)) := by
  induction ops generalizing b d w with
  | nil => exact ⟨b, rfl, rfl⟩
  | cons op ops ih =>
    obtain ⟨b1, h1, h2⟩ := h.reverseOpR (S := S) (A := A) op w
    obtain ⟨b1', h3, h4⟩ := h.reverseOp (S := S) (A := A) op
    rw [h1] at h3; cases h3
    obtain ⟨b2, h5, h6⟩ := ih h4 (w + d.reverting S.segs A.grant op.recipe)
    exact ⟨b2, by simp only [Buf.reverseAll, h1, Except.ok_bind', h5], by simp only [Buf.reverseAllR, h2, Except.ok_bind', h6, Effort.add_assoc]; rfl⟩

theorem ZSim.runAnyR {b d} (h : ZSim b d) (op : Op) (ho : op.Ordered) (w : Effort) :
    ∃ b', Buf.runAny S A b op = .ok b' ∧ Buf.runAnyR S A b w op = .ok (b', w + d.performingAll S.segs A.grant op.recipes) := by
  cases op with
  | simple op =>
    obtain ⟨x, h1, h2⟩ := h.runOpR (S := S) (A := A) op ho w
    exact ⟨x.1, by simp only [Buf.runAny, h1, Except.ok_bind']; rfl, by simp only [Buf.runAnyR, h2, Except.ok_bind', Op.recipes, ZDoc.performingAll, Effort.add_nothing]; rfl⟩
  | group ops => exact h.runAllR ops ho w

theorem ZSim.reverseAnyR {b d} (h : ZSim b d) (op : Op) (w : Effort) :
    ∃ b', Buf.reverseAny S A b op = .ok b' ∧ Buf.reverseAnyR S A b w op = .ok (b', w + d.revertingAll S.segs A.grant op.recipes.reverse) := by
  cases op with
  | simple op =>
    obtain ⟨x, h1, h2⟩ := h.reverseOpR (S := S) (A := A) op w
    exact ⟨x, h1, h2⟩
  | group ops =>
    obtain ⟨b', h1, h2⟩ := h.reverseAllR (S := S) (A := A) ops.reverse w
    exact ⟨b', h1, by rw [Op.recipes, ← List.map_reverse]; exact h2⟩

theorem ZSim.editR {b d} (h : ZSim b d) (op : SOp) (ho : op.Ordered) (w : Effort) :
    ∃ b', (do let (b, op) ← Buf.runOp S A b op; return b.store op : R Buf) = .ok b' ∧ Buf.editR S A b w op = .ok (b', w + d.performing S.segs A.grant op.recipe) := by
  obtain ⟨x, h1, h2⟩ := h.runOpR (S := S) (A := A) op ho w
  exact ⟨_, by rw [h1]; rfl, by simp only [Buf.editR, h2, Except.ok_bind']; rfl⟩

theorem ZSim.replaceR {b d} (h : ZSim b d) (t : Text) (w : Effort) :
    ∃ b', Buf.replace S A b t = .ok b' ∧ Buf.replaceR S A b w t = .ok (b', w + d.replacing S.segs A.grant t) := by
  unfold Buf.replace Buf.replaceR ZDoc.replacing
  rw [show b.data.toStr = .ok d.zip.text from h.data.rep.toStr]
  simp only [h.data.toStrR, Except.ok_bind']
  by_cases ht : t = d.zip.text
  · rw [if_pos ht, if_pos ht, if_pos ht]; exact ⟨b, rfl, rfl⟩
  · rw [if_neg ht, if_neg ht, if_neg ht]
    obtain ⟨b', h1, h2⟩ := h.editR (S := S) (A := A) (.replace d.zip.text t) trivial (w + d.zip.whole + d.zip.whole)
    exact ⟨b', h1, by rw [h2]; simp only [Effort.add_assoc]; rfl⟩

theorem ZSim.setGroup {b d} (h : ZSim b d) : ZSim { b with group := none } { d with group := none } :=
  ⟨h.data, h.cursor, h.undo, h.redo, rfl, h.mark, h.callback, h.log⟩

theorem report_zip (d : ZDoc) (p : Position) : (d.report p).zip = d.zip := by unfold ZDoc.report; split <;> rfl

theorem report_cursor (d : ZDoc) (p : Position) : (d.report p).cursor = d.cursor := by unfold ZDoc.report; split <;> rfl

/-- What is read does not depend on the rest of the document. -/
theorem revertingAll_zip (rs : List Recipe) {d d' : ZDoc} (hz : d.zip = d'.zip) (hc : d.cursor = d'.cursor) :
    d.revertingAll S.segs A.grant rs = d'.revertingAll S.segs A.grant rs := by
  induction rs generalizing d d' with
  | nil => rfl
  | cons r rs ih =>
    have e1 : d.reverting S.segs A.grant r = d'.reverting S.segs A.grant r := by
      cases r with
      | put s p => simp only [ZDoc.reverting, hz]
      | cut o p q => cases o <;> simp only [ZDoc.reverting, hz]
      | swap o n => simp only [ZDoc.reverting, ZDoc.swapping, hz, hc]
    have e2 : (d.revert S.segs A.grant r).zip = (d'.revert S.segs A.grant r).zip ∧ (d.revert S.segs A.grant r).cursor = (d'.revert S.segs A.grant r).cursor := by
      cases r with
      | put s p => simp only [ZDoc.revert, ZDoc.alter, report_zip, report_cursor, hz, hc, and_self]
      | cut o p q =>
        cases o with
        | none => exact ⟨hz, hc⟩
        | some o => simp only [ZDoc.revert, ZDoc.alter, report_zip, report_cursor, hz, hc, and_self]
      | swap o n => simp only [ZDoc.revert, ZDoc.swapIn, report_zip, report_cursor, hz, hc, and_self]
    simp only [ZDoc.revertingAll, e1, ih e2.1 e2.2]

theorem performingAll_zip (rs : List Recipe) {d d' : ZDoc} (hz : d.zip = d'.zip) (hc : d.cursor = d'.cursor) :
    d.performingAll S.segs A.grant rs = d'.performingAll S.segs A.grant rs := by
  induction rs generalizing d d' with
  | nil => rfl
  | cons r rs ih =>
    have e1 : d.performing S.segs A.grant r = d'.performing S.segs A.grant r := by
      cases r with
      | swap o n => simp only [ZDoc.performing, ZDoc.swapping, hz, hc]
      | _ => simp only [ZDoc.performing, hz]
    have e2 : (d.perform S.segs A.grant r).zip = (d'.perform S.segs A.grant r).zip ∧ (d.perform S.segs A.grant r).cursor = (d'.perform S.segs A.grant r).cursor := by
      cases r with
      | swap o n => simp only [ZDoc.perform, ZDoc.swapIn, report_zip, report_cursor, hz, hc, and_self]
      | _ => simp only [ZDoc.perform, ZDoc.alter, report_zip, report_cursor, hz, hc, and_self]
    simp only [ZDoc.performingAll, e1, ih e2.1 e2.2]

theorem ZSim.backR {b d} (h : ZSim b d) (w : Effort) : ∃ b', (match b.history.back with
      | (op, history) => match op with
        | some op => Buf.reverseAny S A { b with group := none, history := history } op
        | none => .ok { b with group := none, history := history } : R Buf) = .ok b' ∧
    (match b.history.back with
      | (op, history) => Buf.reverseFoundR S A { b with group := none, history := history } w op) =
      .ok (b', w + (d.undo.head?.map fun rs => d.revertingAll S.segs A.grant rs.reverse).getD nothing) := by
  have hu := h.undo
  unfold History.back
  cases hp : b.history.previous with
  | nil =>
    rw [hp] at hu; rw [hu]
    exact ⟨_, rfl, rfl⟩
  | cons op ops =>
    rw [hp] at hu; rw [hu]
    have h0 : ZSim { b with group := none, history := ⟨ops, op :: b.history.next, b.history.mark⟩ }
        { d with group := none, undo := ops.map Op.recipes, redo := op.recipes :: d.redo } :=
      ⟨h.data, h.cursor, rfl, by simp [h.redo], rfl, h.mark, h.callback, h.log⟩
    obtain ⟨b', h1, h2⟩ := h0.reverseAnyR (S := S) (A := A) op w
    refine ⟨b', h1, ?_⟩
    rw [revertingAll_zip (d' := d) _ (by rfl) (by rfl)] at h2
    exact h2

theorem ZSim.undoR {b d} (h : ZSim b d) (w : Effort) :
    ∃ b', Buf.undo S A b = .ok b' ∧ Buf.undoR S A b w = .ok (b', w + d.effort S.segs A.grant .undo) := by
  have hb := h.backR (S := S) (A := A) w
  have hg := h.group
  unfold Buf.undo Buf.undoR ZDoc.effort ZDoc.lastStep
  cases hgr : b.group with
  | none => rw [hgr] at hg; rw [hg]; exact hb
  | some ops =>
    cases ops with
    | nil => rw [hgr] at hg; rw [hg]; exact hb
    | cons op ops =>
      rw [hgr] at hg; rw [hg]
      obtain ⟨b', h1, h2⟩ := h.setGroup.reverseAnyR (S := S) (A := A) (.group (op :: ops)) w
      refine ⟨b', h1, ?_⟩
      rw [revertingAll_zip (d' := d) _ (by rfl) (by rfl)] at h2
      exact h2

theorem ZSim.redoR {b d} (h : ZSim b d) (hs : Sane b) (w : Effort) :
    ∃ b', Buf.redo S A b = .ok b' ∧ Buf.redoR S A b w = .ok (b', w + d.effort S.segs A.grant .redo) := by
  have hn := h.redo
  unfold Buf.redo Buf.redoR History.forth ZDoc.effort
  cases hp : b.history.next with
  | nil =>
    rw [hp] at hn; rw [hn]
    exact ⟨_, rfl, rfl⟩
  | cons op ops =>
    rw [hp] at hn; rw [hn]
    have h0 : ZSim { b with history := ⟨op :: b.history.previous, ops, b.history.mark⟩ }
        { d with undo := op.recipes :: d.undo, redo := ops.map Op.recipes } :=
      ⟨h.data, h.cursor, by simp [h.undo], rfl, h.group, h.mark, h.callback, h.log⟩
    obtain ⟨b', h1, h2⟩ := h0.runAnyR (S := S) (A := A) op (hs.next op (by simp [hp])) w
    refine ⟨b', h1, ?_⟩
    rw [performingAll_zip (d' := d) _ (by rfl) (by rfl)] at h2
    exact h2

theorem cut_performing (d : ZDoc) (p q : Position) (o : Option Text) :
    d.performing S.segs A.grant (SOp.recipe (.delete o (Range.new p q))) = d.performing S.segs A.grant (d.cutNow S.segs p q) := by
  simp only [SOp.recipe, ZDoc.cutNow, range_new, ZDoc.performing]

theorem ZSim.stepR {b d} (h : ZSim b d) (hs : Sane b) (c : Cmd) (w : Effort) :
    ∃ b', exec S A b c = .ok b' ∧ execR S A b w c = .ok (b', w + d.effort S.segs A.grant c) := by
  cases c with
  | insert s =>
    have := h.editR (S := S) (A := A) (.insert s b.cursor.position) trivial w
    rw [h.cursor] at this
    simp only [exec, execR, Buf.insert, h.cursor]; exact this
  | delete =>
    simp only [exec, execR, Buf.delete, Buf.deleteR]
    rw [inBounds_rep h.data.rep]
    simp only [GapBuffer.inBoundsR, h.data.findOffsetR, Except.ok_bind', Buf.deleteRange, Option.isSome_map, pure_bind]
    have e : (if (!(locate (S.segs d.zip.left ++ S.segs d.zip.right) ⟨b.cursor.position.line, b.cursor.position.offset + 1⟩).isSome) = true
        then (⟨b.cursor.position.line + 1, 0⟩ : Position) else ⟨b.cursor.position.line, b.cursor.position.offset + 1⟩) = d.deleteEnd S.segs := by
      unfold ZDoc.deleteEnd Zip.has Zip.clusters
      rw [h.cursor]
      dsimp only
      cases locate (S.segs d.zip.left ++ S.segs d.zip.right) ⟨d.cursor.position.line, d.cursor.position.offset + 1⟩ <;> rfl
    have e' := e
    rw [show S.segs d.zip.left ++ S.segs d.zip.right = d.zip.clusters S.segs from rfl] at e'
    rw [e, e', h.cursor]
    obtain ⟨b', h1, h2⟩ := h.editR (S := S) (A := A) (.delete none (Range.new d.cursor.position (d.deleteEnd S.segs))) (range_new_ok _ _)
      (w + d.zip.lookup S.segs ⟨d.cursor.position.line, d.cursor.position.offset + 1⟩)
    refine ⟨b', h1, ?_⟩
    rw [h2, cut_performing, Effort.add_assoc]; rfl
  | deleteRange p q =>
    obtain ⟨b', h1, h2⟩ := h.editR (S := S) (A := A) (.delete none (Range.new p q)) (range_new_ok p q) w
    exact ⟨b', h1, by simp only [execR]; rw [h2, cut_performing]; rfl⟩
  | replace t => exact h.replaceR t w
  | undo => exact h.undoR w
  | redo => exact h.redoR hs w
  | move m =>
    simp only [exec, execR, h.data.move, h.data.moveR, Except.ok_bind', h.cursor]
    exact ⟨_, rfl, rfl⟩
  | reload t =>
    obtain ⟨b1, h1, h2⟩ := h.replaceR (S := S) (A := A) t w
    simp only [exec, execR, reloadWith, h1, h2, Except.ok_bind']
    exact ⟨_, rfl, rfl⟩
  | startGroup => exact ⟨_, rfl, rfl⟩
  | endGroup => exact ⟨_, rfl, rfl⟩
  | setCursor p => exact ⟨_, rfl, rfl⟩
  | setCallback v => exact ⟨_, rfl, rfl⟩
  | saved => exact ⟨_, rfl, rfl⟩

end Scribe
