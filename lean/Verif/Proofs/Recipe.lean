import Verif.Spec.Recipe
import Verif.Proofs.Zipper
import Verif.Proofs.Safe
/-!
# The buffer performs recipes on a zipper
-/
namespace Scribe
open Spec Buf GapBuffer
variable {S : Segmenter} {A : Alloc}

/-- The recipe of an operation. -/
def SOp.recipe : SOp → Recipe
  | .insert s p => .put s p
  | .delete c r => .cut c r.start r.stop
  | .replace o n => .swap o n

def Op.recipes : Op → List Recipe
  | .simple op => [op.recipe]
  | .group ops => ops.map SOp.recipe

/-- The buffer stands for the document. -/
structure ZSim (b : Buf) (d : ZDoc) : Prop where
  data : Zips b.data d.zip
  cursor : b.cursor = d.cursor
  undo : d.undo = b.history.previous.map Op.recipes
  redo : d.redo = b.history.next.map Op.recipes
  group : d.group = b.group.map (·.map SOp.recipe)
  mark : d.mark = b.history.mark
  callback : d.callback = b.callback
  log : d.log = b.log

theorem ZSim.report {b d} (h : ZSim b d) (p : Position) : ZSim (b.report p) (d.report p) := by
  unfold Buf.report ZDoc.report
  rw [h.callback]
  split
  · exact ⟨h.data, h.cursor, h.undo, h.redo, h.group, h.mark, rfl, by simp [h.log]⟩
  · exact h

theorem ZSim.setData {b d g z} (h : ZSim b d) (hg : Zips g z) : ZSim { b with data := g } { d with zip := z } :=
  ⟨hg, h.cursor, h.undo, h.redo, h.group, h.mark, h.callback, h.log⟩

theorem GapBuffer.Zips.insert {g z} (h : Zips g z) (s : Text) (p : Position) :
    ∃ g', g.insert S A s p = .ok g' ∧ Zips g' (z.call S.segs A.grant (.insert s p)).2 := by
  obtain ⟨g', h1, h2⟩ := h.call (S := S) (A := A) (.insert s p)
  obtain ⟨x, hx, hy⟩ := bind_ok h1
  obtain ⟨-, rfl⟩ := Prod.mk.inj (Except.ok.inj hy)
  exact ⟨_, hx, h2⟩

theorem GapBuffer.Zips.delete {g z} (h : Zips g z) (r : Range) (hr : AtOrBefore r.start r.stop) :
    ∃ g', g.delete S r = .ok g' ∧ Zips g' (z.call S.segs A.grant (.delete r.start r.stop)).2 := by
  obtain ⟨g', h1, h2⟩ := h.call (S := S) (A := A) (.delete r.start r.stop)
  obtain ⟨x, hx, hy⟩ := bind_ok h1
  rw [range_new_of_le hr] at hx
  obtain ⟨-, rfl⟩ := Prod.mk.inj (Except.ok.inj hy)
  exact ⟨_, hx, h2⟩

theorem GapBuffer.Zips.read {g z} (h : Zips g z) (r : Range) (hr : AtOrBefore r.start r.stop) (d : ZDoc) (hd : d.zip = z) :
    g.read S r = .ok (d.between S.segs r.start r.stop) := by
  subst hd
  rw [read_rep h.rep _ hr]; rfl

theorem GapBuffer.Zips.bounds {g z} (_ : Zips g z) (p : Position) : Cursor.bounds S z.left z.right p = z.has S.segs p := rfl

theorem GapBuffer.Zips.moveTo {g z} (h : Zips g z) (c : Cursor) (p : Position) :
    Cursor.moveTo S g c p = .ok (z.has S.segs p, z.goto S.segs c p) := by
  rw [Cursor.moveTo_rep h.rep, h.bounds]
  unfold Zip.goto
  split
  · rename_i hb; rw [hb]
  · rename_i hb; rw [Bool.not_eq_true] at hb; rw [hb]

theorem GapBuffer.Zips.move {g z} (h : Zips g z) (c : Cursor) (m : Cursor.Move) :
    Cursor.move S g c m = .ok (z.moveCursor S.segs c m) := by
  have ht : g.toStr = .ok z.text := h.rep.toStr
  have hmt : ∀ c p, (do return (← Cursor.moveTo S g c p).2 : R Cursor) = .ok (z.goto S.segs c p) := by
    intro c p; rw [h.moveTo]; rfl
  have hml : ∀ l, Cursor.moveToLine S g c l = .ok (z.gotoLine S.segs c l) := fun l => Cursor.moveToLine_rep h.rep c l
  have hmin : ∀ l n k : Nat, (if n < k then (⟨l, n⟩ : Position) else ⟨l, k⟩) = ⟨l, min k n⟩ := by
    intro l n k; split <;> congr 1 <;> omega
  cases m with
  | «to» p => exact hmt c p
  | up =>
    simp only [Cursor.move, Cursor.moveUp, Zip.moveCursor]
    split
    · rfl
    · rw [subU, if_pos (by omega)]; exact hml _
  | down => exact hml _
  | left =>
    simp only [Cursor.move, Cursor.moveLeft, Zip.moveCursor]
    split
    · rfl
    · rw [subU, if_pos (by omega)]; exact hmt c _
  | right => exact hmt c _
  | startOfLine => exact hmt c _
  | endOfLine =>
    simp only [Cursor.move, Cursor.moveToEndOfLine, ht, Except.ok_bind', Zip.moveCursor, Zip.lineStop]
    cases hl : (strLines z.text)[c.position.line]? with
    | none => rw [if_neg (by rw [List.getElem?_eq_none_iff] at hl; exact Nat.not_lt.mpr hl)]; rfl
    | some l =>
      rw [if_pos (by rw [List.getElem?_eq_some_iff] at hl; exact hl.1)]
      exact hmt c _
  | lastLine =>
    simp only [Cursor.move, Cursor.moveToLastLine, h.rep.toStr, Except.ok_bind', Zip.moveCursor, Zip.text]
    have := Cursor.lastLine_eq (S.segs (z.left ++ z.right)) ⟨0, 0⟩
    rw [← endPos_eq_foldl] at this
    simp only [this, hmin]
    exact hmt c _
  | firstLine =>
    simp only [Cursor.move, Cursor.moveToFirstLine, h.rep.toStr, Except.ok_bind', Zip.moveCursor, Zip.lineStop, Zip.text, hmin]
    exact hmt c _

theorem ZSim.swapIn {b d} (h : ZSim b d) (t : Text) : ∃ b', replaceContent S A t b = .ok b' ∧ ZSim b' (d.swapIn S.segs A.grant t) := by
  have hn : Zips (GapBuffer.new A b.data.clock t) (Zip.fresh A.grant d.zip.clock t) := by
    rw [h.data.clock]; exact Zips.new _ _
  unfold replaceContent ZDoc.swapIn
  rw [h.cursor]
  simp only [hn.moveTo, Except.ok_bind']
  cases hb : (Zip.fresh A.grant d.zip.clock t).has S.segs d.cursor.position with
  | true =>
    refine ⟨_, rfl, ZSim.report ?_ _⟩
    refine ⟨hn, ?_, h.undo, h.redo, h.group, h.mark, h.callback, h.log⟩
    simp [Zip.goto, hb]
  | false =>
    refine ⟨_, rfl, ZSim.report ?_ _⟩
    refine ⟨hn, ?_, h.undo, h.redo, h.group, h.mark, h.callback, h.log⟩
    simp [Zip.goto, hb, Cursor.new]

theorem ZSim.runOp {b d} (h : ZSim b d) (op : SOp) (ho : op.Ordered) : ∃ b' op', Buf.runOp S A b op = .ok (b', op') ∧
    ZSim b' (d.perform S.segs A.grant op.recipe) ∧
    op' = match op with | .delete _ r => .delete (d.between S.segs r.start r.stop) r | op => op := by
  cases op with
  | insert s p =>
    obtain ⟨g', h1, h2⟩ := h.data.insert (S := S) (A := A) s p
    simp only [Buf.runOp, h1, Except.ok_bind']
    exact ⟨_, _, rfl, (h.setData h2).report p, rfl⟩
  | delete c r =>
    obtain ⟨g', h1, h2⟩ := h.data.delete (S := S) (A := A) r ho
    simp only [Buf.runOp, h.data.read r ho d rfl, h1, Except.ok_bind']
    exact ⟨_, _, rfl, (h.setData h2).report _, rfl⟩
  | replace o n =>
    obtain ⟨b', h1, h2⟩ := h.swapIn (S := S) (A := A) n
    simp only [Buf.runOp, h1, Except.ok_bind']
    exact ⟨_, _, rfl, h2, rfl⟩

theorem insertEnd_putEnd (s : Text) (p : Position) : insertEnd S s p = .ok (some (putEnd S.segs s p)) := by
  unfold insertEnd putEnd
  simp only [subU, show 1 ≤ p.line + (countNl s + 1) by omega, if_true, Except.ok_bind']
  by_cases hc : countNl s = 0
  · rw [if_pos (by omega), if_pos hc]
    congr 3; omega
  · rw [if_neg (by omega), if_neg hc]
    have hne : splitNl s ≠ [] := by
      cases s with
      | nil => simp [splitNl]
      | cons c s => unfold splitNl; repeat (split <;> simp)
    cases hl : (splitNl s).getLast? with
    | none => exact absurd (List.getLast?_eq_none_iff.mp hl) hne
    | some l => 
      simp only [Option.getD_some]
      congr 3

theorem lo_hi_call (z : Zip) (p q : Position) : (z.call S.segs A.grant (.delete (lo p q) (hi p q))) = z.call S.segs A.grant (.delete p q) := by
  have h := lo_le_hi p q
  simp only [Zip.call]
  rw [lo_of_le h, show hi (lo p q) (hi p q) = hi p q from if_pos h]

theorem ZSim.reverseOp {b d} (h : ZSim b d) (op : SOp) : ∃ b', Buf.reverseOp S A b op = .ok b' ∧ ZSim b' (d.revert S.segs A.grant op.recipe) := by
  cases op with
  | insert s p =>
    obtain ⟨g', h1, h2⟩ := h.data.delete (S := S) (A := A) (Range.new p (putEnd S.segs s p)) (range_new_ok _ _)
    simp only [Buf.reverseOp, insertEnd_putEnd, h1, Except.ok_bind']
    rw [range_new, lo_hi_call] at h2
    exact ⟨_, rfl, (h.setData h2).report p⟩
  | delete c r =>
    cases c with
    | none => exact ⟨_, rfl, h⟩
    | some c =>
      obtain ⟨g', h1, h2⟩ := h.data.insert (S := S) (A := A) c r.start
      simp only [Buf.reverseOp, h1, Except.ok_bind']
      exact ⟨_, rfl, (h.setData h2).report _⟩
  | replace o n => exact h.swapIn o

theorem ZSim.runAll (ops : List SOp) {b d} (h : ZSim b d) (ho : ∀ op ∈ ops, op.Ordered) :
    ∃ b', Buf.runAll S A b ops = .ok b' ∧ ZSim b' (d.performAll S.segs A.grant (ops.map SOp.recipe)) := by
  induction ops generalizing b d with
  | nil => exact ⟨b, rfl, h⟩
  | cons op ops ih =>
    obtain ⟨b1, op', h1, h2, _⟩ := h.runOp (S := S) (A := A) op (ho op (by simp))
    obtain ⟨b2, h3, h4⟩ := ih h2 (fun o h => ho o (by simp [h]))
    exact ⟨b2, by simp only [Buf.runAll, h1, Except.ok_bind', h3], h4⟩

theorem ZSim.reverseAll (ops : List SOp) {b d} (h : ZSim b d) :
    ∃ b', Buf.reverseAll S A b ops = .ok b' ∧ ZSim b' ((ops.map SOp.recipe).foldl (ZDoc.revert S.segs A.grant) d) := by
  induction ops generalizing b d with
  | nil => exact ⟨b, rfl, h⟩
  | cons op ops ih =>
    obtain ⟨b1, h1, h2⟩ := h.reverseOp (S := S) (A := A) op
    obtain ⟨b2, h3, h4⟩ := ih h2
    exact ⟨b2, by simp only [Buf.reverseAll, h1, Except.ok_bind', h3], h4⟩

theorem ZSim.runAny {b d} (h : ZSim b d) (op : Op) (ho : op.Ordered) :
    ∃ b', Buf.runAny S A b op = .ok b' ∧ ZSim b' (d.performAll S.segs A.grant op.recipes) := by
  cases op with
  | simple op =>
    obtain ⟨b1, op', h1, h2, _⟩ := h.runOp (S := S) (A := A) op ho
    exact ⟨b1, by simp only [Buf.runAny, h1, Except.ok_bind']; rfl, h2⟩
  | group ops => exact h.runAll ops ho

theorem ZSim.reverseAny {b d} (h : ZSim b d) (op : Op) :
    ∃ b', Buf.reverseAny S A b op = .ok b' ∧ ZSim b' (d.revertAll S.segs A.grant op.recipes) := by
  cases op with
  | simple op => exact h.reverseOp op
  | group ops =>
    obtain ⟨b', h1, h2⟩ := h.reverseAll (S := S) (A := A) ops.reverse
    exact ⟨b', h1, by rw [ZDoc.revertAll, Op.recipes, ← List.map_reverse]; exact h2⟩

theorem ZSim.push {b d} (h : ZSim b d) (op : Op) :
    ZSim { b with history := b.history.add op } (d.push op.recipes) := by
  refine ⟨h.data, h.cursor, ?_, rfl, h.group, ?_, h.callback, h.log⟩
  · simp [ZDoc.push, History.add, h.undo]
  · simp only [ZDoc.push, History.add, h.mark, h.undo, List.length_map, List.length_cons]
    cases b.history.mark with
    | none => rfl
    | some m =>
      simp only [Option.filter_some]
      by_cases hm : m ≥ b.history.previous.length + 1
      · rw [if_pos hm, if_neg (by simp; omega)]
      · rw [if_neg hm, if_pos (by simp; omega)]

theorem ZSim.store {b d} (h : ZSim b d) (op : SOp) : ZSim (b.store op)
    (match d.group with | some rs => { d with group := some (rs ++ [op.recipe]) } | none => d.push [op.recipe]) := by
  unfold Buf.store
  have := h.group
  cases hg : b.group with
  | none =>
    rw [hg] at this; rw [this]
    have hp := h.push (.simple op)
    rw [hg] at hp; exact hp
  | some ops =>
    rw [hg] at this; rw [this]
    exact ⟨h.data, h.cursor, h.undo, h.redo, by simp, h.mark, h.callback, h.log⟩

theorem ZSim.runStore {b d} (h : ZSim b d) (op : SOp) (ho : op.Ordered) (r : Recipe)
    (hr : r = (match op with | .delete _ r => SOp.delete (d.between S.segs r.start r.stop) r | op => op).recipe) :
    ∃ b', (do let (b, op) ← Buf.runOp S A b op; return b.store op : R Buf) = .ok b' ∧ ZSim b' (d.edit S.segs A.grant r) := by
  obtain ⟨b1, op', h1, h2, h3⟩ := h.runOp (S := S) (A := A) op ho
  refine ⟨_, by rw [h1]; rfl, ?_⟩
  have e : d.perform S.segs A.grant op.recipe = d.perform S.segs A.grant r := by
    rw [hr]; cases op <;> rfl
  have hop : op'.recipe = r := by rw [h3, hr]; cases op <;> rfl
  have := h2.store op'
  rw [hop, e] at this
  exact this

theorem ZSim.replace {b d} (h : ZSim b d) (t : Text) : ∃ b', Buf.replace S A b t = .ok b' ∧ ZSim b' (d.replace S.segs A.grant t) := by
  unfold Buf.replace ZDoc.replace
  have e : b.data.toStr = .ok d.zip.text := h.data.rep.toStr
  rw [e]
  simp only [Except.ok_bind']
  by_cases ht : t = d.zip.text
  · rw [if_pos ht, if_pos ht]; exact ⟨b, rfl, h⟩
  · rw [if_neg ht, if_neg ht]
    exact h.runStore (S := S) (A := A) (.replace d.zip.text t) trivial (.swap d.zip.text t) rfl

theorem ZSim.back {b d} (h : ZSim b d) : ∃ b', (match b.history.back with
      | (op, history) => match op with
        | some op => Buf.reverseAny S A { b with group := none, history := history } op
        | none => .ok { b with group := none, history := history } : R Buf) = .ok b' ∧
    ZSim b' (match d.undo with
      | rs :: rest => ZDoc.revertAll S.segs A.grant { d with group := none, undo := rest, redo := rs :: d.redo } rs
      | [] => { d with group := none }) := by
  have hu := h.undo
  unfold History.back
  cases hp : b.history.previous with
  | nil =>
    rw [hp] at hu; rw [hu]
    exact ⟨_, rfl, h.data, h.cursor, by rw [hp]; rfl, h.redo, rfl, h.mark, h.callback, h.log⟩
  | cons op ops =>
    rw [hp] at hu; rw [hu]
    have h0 : ZSim { b with group := none, history := ⟨ops, op :: b.history.next, b.history.mark⟩ }
        { d with group := none, undo := ops.map Op.recipes, redo := op.recipes :: d.redo } :=
      ⟨h.data, h.cursor, rfl, by simp [h.redo], rfl, h.mark, h.callback, h.log⟩
    exact h0.reverseAny op

theorem ZSim.undo1 {b d} (h : ZSim b d) : ∃ b', Buf.undo S A b = .ok b' ∧ ZSim b' (d.undo1 S.segs A.grant) := by
  have hb := h.back (S := S) (A := A)
  have hg := h.group
  unfold Buf.undo ZDoc.undo1
  cases hgr : b.group with
  | none => rw [hgr] at hg; rw [hg]; exact hb
  | some ops =>
    cases ops with
    | nil => rw [hgr] at hg; rw [hg]; exact hb
    | cons op ops =>
      rw [hgr] at hg; rw [hg]
      have h0 : ZSim { b with group := none } { d with group := none } :=
        ⟨h.data, h.cursor, h.undo, h.redo, rfl, h.mark, h.callback, h.log⟩
      exact h0.reverseAny (.group (op :: ops))

theorem ZSim.redo1 {b d} (h : ZSim b d) (hs : Sane b) : ∃ b', Buf.redo S A b = .ok b' ∧ ZSim b' (d.redo1 S.segs A.grant) := by
  have hn := h.redo
  unfold Buf.redo ZDoc.redo1 History.forth
  cases hp : b.history.next with
  | nil =>
    rw [hp] at hn; rw [hn]
    exact ⟨_, rfl, h⟩
  | cons op ops =>
    rw [hp] at hn; rw [hn]
    have h0 : ZSim { b with history := ⟨op :: b.history.previous, ops, b.history.mark⟩ }
        { d with undo := op.recipes :: d.undo, redo := ops.map Op.recipes } :=
      ⟨h.data, h.cursor, by simp [h.undo], rfl, h.group, h.mark, h.callback, h.log⟩
    exact h0.runAny op (hs.next op (by simp [hp]))

theorem ZSim.step {b d} (h : ZSim b d) (hs : Sane b) (c : Cmd) : ∃ b', exec S A b c = .ok b' ∧ ZSim b' (d.step S.segs A.grant c) := by
  cases c with
  | insert s => 
    have := h.runStore (S := S) (A := A) (.insert s b.cursor.position) trivial (.put s b.cursor.position) rfl
    rw [h.cursor] at this
    simp only [exec, Buf.insert, ZDoc.step, h.cursor]; exact this
  | delete =>
    simp only [exec, Buf.delete, ZDoc.step]
    rw [inBounds_rep h.data.rep]
    simp only [Except.ok_bind', Buf.deleteRange]
    have e : (if (!(locate (S.segs d.zip.left ++ S.segs d.zip.right) ⟨b.cursor.position.line, b.cursor.position.offset + 1⟩).isSome) = true
        then (⟨b.cursor.position.line + 1, 0⟩ : Position) else ⟨b.cursor.position.line, b.cursor.position.offset + 1⟩) = d.deleteEnd S.segs := by
      unfold ZDoc.deleteEnd Zip.has Zip.clusters
      rw [h.cursor]
      dsimp only
      cases locate (S.segs d.zip.left ++ S.segs d.zip.right) ⟨d.cursor.position.line, d.cursor.position.offset + 1⟩ <;> rfl
    rw [e, h.cursor]
    exact h.runStore (S := S) (A := A) (.delete none (Range.new _ _)) (range_new_ok _ _) (d.cutNow S.segs _ _) (by
      simp only [SOp.recipe, range_new]; rfl)
  | deleteRange p q =>
    have := h.runStore (S := S) (A := A) (.delete none (Range.new p q)) (range_new_ok p q) (d.cutNow S.segs p q) (by
      simp only [SOp.recipe, range_new]; rfl)
    exact this
  | replace t => exact h.replace t
  | undo => exact h.undo1
  | redo => exact h.redo1 hs
  | startGroup =>
    refine ⟨_, rfl, ?_⟩
    have hg := h.group
    simp only [ZDoc.step, Buf.startGroup]
    cases hgr : b.group with
    | none =>
      rw [hgr] at hg
      exact ⟨h.data, h.cursor, h.undo, h.redo, by simp [hg], h.mark, h.callback, h.log⟩
    | some ops =>
      rw [hgr] at hg
      exact ⟨h.data, h.cursor, h.undo, h.redo, by simp [hg, hgr], h.mark, h.callback, h.log⟩
  | endGroup =>
    refine ⟨_, rfl, ?_⟩
    have hg := h.group
    simp only [ZDoc.step, Buf.endGroup, ZDoc.endGroup]
    cases hgr : b.group with
    | none =>
      rw [hgr] at hg
      simp only [hg, Option.map_none]
      exact ⟨h.data, h.cursor, h.undo, h.redo, by simp [hgr], h.mark, h.callback, h.log⟩
    | some ops =>
      rw [hgr] at hg
      have h0 : ZSim { b with group := none } { d with group := none } :=
        ⟨h.data, h.cursor, h.undo, h.redo, rfl, h.mark, h.callback, h.log⟩
      cases ops with
      | nil => simp only [hg, Option.map_some, List.map_nil]; exact h0
      | cons op ops =>
        simp only [hg, Option.map_some, List.map_cons]
        exact h0.push (.group (op :: ops))
  | move m =>
    simp only [exec, h.data.move, Except.ok_bind']
    exact ⟨_, rfl, h.data, by simp [ZDoc.step, h.cursor], h.undo, h.redo, h.group, h.mark, h.callback, h.log⟩
  | setCursor p => exact ⟨_, rfl, h.data, by simp [ZDoc.step, h.cursor], h.undo, h.redo, h.group, h.mark, h.callback, h.log⟩
  | setCallback v => exact ⟨_, rfl, h.data, h.cursor, h.undo, h.redo, h.group, h.mark, rfl, h.log⟩
  | saved => exact ⟨_, rfl, h.data, h.cursor, h.undo, h.redo, h.group, by simp [ZDoc.step, h.undo, Buf.setMark, History.setMark], h.callback, h.log⟩
  | reload t =>
    obtain ⟨b1, h1, h2⟩ := h.replace (S := S) (A := A) t
    simp only [exec, reloadWith, h1, Except.ok_bind']
    exact ⟨_, rfl, h2.data, h2.cursor, h2.undo, h2.redo, h2.group, by simp [ZDoc.step, h2.undo, Buf.setMark, History.setMark], h2.callback, h2.log⟩

theorem ZSim.steps (cs : List Cmd) {b d} (h : ZSim b d) (hs : Sane b) :
    ∃ b', execAll S A b cs = .ok b' ∧ ZSim b' (d.steps S.segs A.grant cs) := by
  induction cs generalizing b d with
  | nil => exact ⟨b, rfl, h⟩
  | cons c cs ih =>
    obtain ⟨b1, h1, h2⟩ := h.step (S := S) (A := A) hs c
    obtain ⟨b1', h1', hs1⟩ := exec_safe (S := S) (A := A) hs c
    rw [h1] at h1'; cases h1'
    obtain ⟨b2, h3, h4⟩ := ih h2 hs1
    exact ⟨b2, by simp only [execAll, h1, Except.ok_bind', h3], h4⟩

theorem ZSim.fromContent (k : Nat) (t : Text) : ZSim (Buf.fromContent A k t) (ZDoc.new A.grant k t true) :=
  ⟨Zips.new k t, rfl, rfl, rfl, rfl, rfl, rfl, rfl⟩

theorem ZSim.new (k : Nat) : ZSim (Buf.new A k) (ZDoc.new A.grant k [] false) :=
  ⟨Zips.new k [], rfl, rfl, rfl, rfl, rfl, rfl, rfl⟩

end Scribe
