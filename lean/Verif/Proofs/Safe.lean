import Verif.Model.Buffer
import Verif.Proofs.Cursor
import Verif.Proofs.GapRun
/-! No buffer call panics, clean or not. -/
namespace Scribe
open Spec Buf
variable {S : Segmenter} {A : Alloc}

/-- Stored deletions have ordered ranges (`Range`s can only be made by `Range::new`). -/
def SOp.Ordered : SOp → Prop
  | .delete _ r => AtOrBefore r.start r.stop
  | _ => True

def Op.Ordered : Op → Prop
  | .simple op => op.Ordered
  | .group ops => ∀ op ∈ ops, op.Ordered

/-- What holds of every buffer, however it was made. -/
structure Sane (b : Buf) : Prop where
  data : ∃ pre post, Rep b.data pre post
  previous : ∀ op ∈ b.history.previous, op.Ordered
  next : ∀ op ∈ b.history.next, op.Ordered
  group : ∀ ops, b.group = some ops → ∀ op ∈ ops, op.Ordered

theorem Sane.toStr {b : Buf} (h : Sane b) : ∃ t, b.data.toStr = .ok t := by
  obtain ⟨pre, post, hr⟩ := h.data; exact ⟨_, hr.toStr⟩

/-- Same history, group, callback; the data still represents a text. -/
structure Kept (b b' : Buf) : Prop where
  data : ∃ pre post, Rep b'.data pre post
  history : b'.history = b.history
  group : b'.group = b.group

theorem Kept.sane {b b' : Buf} (k : Kept b b') (h : Sane b) : Sane b' :=
  ⟨k.data, by rw [k.history]; exact h.previous, by rw [k.history]; exact h.next, by rw [k.group]; exact h.group⟩

theorem kept_report {b b' : Buf} (p : Position) (h1 : ∃ pre post, Rep b'.data pre post) (h2 : b'.history = b.history)
    (h3 : b'.group = b.group) : Kept b (b'.report p) := by
  unfold Buf.report; split
  · exact ⟨h1, h2, h3⟩
  · exact ⟨h1, h2, h3⟩

theorem insert_safe {g : GapBuffer} {pre post : Text} (h : Rep g pre post) (s : Text) (p : Position) :
    ∃ g', g.insert S A s p = .ok g' ∧ ∃ pre post, Rep g' pre post := by
  obtain ⟨o, g', pre', post', h1, h2, _⟩ := GapBuffer.call_rep (S := S) (A := A) h (.insert s p)
  simp only [GapBuffer.call] at h1
  cases h3 : g.insert S A s p with
  | error e => rw [h3] at h1; cases h1
  | ok g2 => rw [h3] at h1; cases h1; exact ⟨_, rfl, _, _, h2⟩

theorem delete_safe {g : GapBuffer} {pre post : Text} (h : Rep g pre post) (r : Range) (hr : AtOrBefore r.start r.stop) :
    ∃ g', g.delete S r = .ok g' ∧ ∃ pre post, Rep g' pre post := by
  obtain ⟨o, g', pre', post', h1, h2, _⟩ := GapBuffer.call_rep (S := S) (A := ⟨fun _ _ n => List.replicate n 0, by simp⟩) h (.delete r.start r.stop)
  simp only [GapBuffer.call, range_new_of_le hr] at h1
  cases h3 : g.delete S r with
  | error e => rw [h3] at h1; cases h1
  | ok g2 => rw [h3] at h1; cases h1; exact ⟨_, rfl, _, _, h2⟩

theorem moveTo_safe {g : GapBuffer} {pre post : Text} (h : Rep g pre post) (c : Cursor) (p : Position) :
    ∃ r, Cursor.moveTo S g c p = .ok r := ⟨_, Cursor.moveTo_rep h c p⟩

theorem replaceContent_safe (b : Buf) (t : Text) : ∃ b', replaceContent S A t b = .ok b' ∧ Kept b b' := by
  have hn : Rep (GapBuffer.new A b.data.clock t) t [] := GapBuffer.new_rep _ _
  have key : ∀ c, Kept b (({ b with data := GapBuffer.new A b.data.clock t, cursor := c } : Buf).report Position.new) :=
    fun c => by apply kept_report <;> first | rfl | exact ⟨_, _, hn⟩
  unfold replaceContent
  dsimp only
  obtain ⟨⟨ok, cu⟩, h1⟩ := moveTo_safe (S := S) hn (Cursor.new ⟨0, 0⟩) b.cursor.position
  simp only [h1, Except.ok_bind']
  cases ok with
  | true => exact ⟨_, rfl, key _⟩
  | false =>
    obtain ⟨⟨ok2, cu2⟩, h2⟩ := moveTo_safe (S := S) hn cu ⟨b.cursor.position.line, 0⟩
    simp only [h2]
    exact ⟨_, rfl, key _⟩

theorem runOp_safe {b : Buf} (h : ∃ pre post, Rep b.data pre post) (op : SOp) (ho : op.Ordered) :
    ∃ b' op', runOp S A b op = .ok (b', op') ∧ Kept b b' ∧ op'.Ordered := by
  obtain ⟨pre, post, hr⟩ := h
  cases op with
  | insert s p =>
    obtain ⟨g', h1, h2⟩ := insert_safe (S := S) (A := A) hr s p
    simp only [runOp, h1, Except.ok_bind']
    exact ⟨_, _, rfl, by apply kept_report <;> first | rfl | exact h2, trivial⟩
  | delete c r =>
    obtain ⟨g', h1, h2⟩ := delete_safe (S := S) hr r ho
    simp only [runOp, GapBuffer.read_rep hr r ho, h1, Except.ok_bind']
    exact ⟨_, _, rfl, by apply kept_report <;> first | rfl | exact h2, ho⟩
  | replace o n =>
    obtain ⟨b', h1, h2⟩ := replaceContent_safe (S := S) (A := A) b n
    simp only [runOp, h1, Except.ok_bind']
    exact ⟨_, _, rfl, h2, trivial⟩

theorem insertEnd_safe (s : Text) (p : Position) : ∃ q, insertEnd S s p = .ok q := by
  unfold insertEnd
  simp only [subU, show 1 ≤ p.line + (countNl s + 1) by omega, if_true, Except.ok_bind']
  split
  · exact ⟨_, rfl⟩
  · split <;> exact ⟨_, rfl⟩

theorem reverseOp_safe {b : Buf} (h : ∃ pre post, Rep b.data pre post) (op : SOp) :
    ∃ b', reverseOp S A b op = .ok b' ∧ Kept b b' := by
  obtain ⟨pre, post, hr⟩ := h
  have same : Kept b b := ⟨⟨_, _, hr⟩, rfl, rfl⟩
  cases op with
  | insert s p =>
    obtain ⟨q, hq⟩ := insertEnd_safe (S := S) s p
    simp only [reverseOp, hq, Except.ok_bind']
    cases q with
    | none => exact ⟨_, rfl, same⟩
    | some q =>
      obtain ⟨g', h1, h2⟩ := delete_safe (S := S) hr (Range.new p q) (range_new_ok p q)
      simp only [h1, Except.ok_bind']
      exact ⟨_, rfl, by apply kept_report <;> first | rfl | exact h2⟩
  | delete c r =>
    cases c with
    | none => exact ⟨_, rfl, same⟩
    | some c =>
      obtain ⟨g', h1, h2⟩ := insert_safe (S := S) (A := A) hr c r.start
      simp only [reverseOp, h1, Except.ok_bind']
      exact ⟨_, rfl, by apply kept_report <;> first | rfl | exact h2⟩
  | replace o n => exact replaceContent_safe b o

theorem Kept.trans {a b c : Buf} (h : Kept a b) (h' : Kept b c) : Kept a c :=
  ⟨h'.data, h'.history.trans h.history, h'.group.trans h.group⟩

theorem runAll_safe (ops : List SOp) {b : Buf} (h : ∃ pre post, Rep b.data pre post) (ho : ∀ op ∈ ops, op.Ordered) :
    ∃ b', runAll S A b ops = .ok b' ∧ Kept b b' := by
  induction ops generalizing b with
  | nil => exact ⟨b, rfl, h, rfl, rfl⟩
  | cons op ops ih =>
    obtain ⟨b1, o1, h1, k1, _⟩ := runOp_safe (S := S) (A := A) h op (ho op (by simp))
    obtain ⟨b2, h2, k2⟩ := ih k1.data (fun x hx => ho x (by simp [hx]))
    exact ⟨b2, by simp only [runAll, h1, Except.ok_bind', h2], k1.trans k2⟩

theorem reverseAll_safe (ops : List SOp) {b : Buf} (h : ∃ pre post, Rep b.data pre post) :
    ∃ b', reverseAll S A b ops = .ok b' ∧ Kept b b' := by
  induction ops generalizing b with
  | nil => exact ⟨b, rfl, h, rfl, rfl⟩
  | cons op ops ih =>
    obtain ⟨b1, h1, k1⟩ := reverseOp_safe (S := S) (A := A) h op
    obtain ⟨b2, h2, k2⟩ := ih k1.data
    exact ⟨b2, by simp only [reverseAll, h1, Except.ok_bind', h2], k1.trans k2⟩

theorem runAny_safe {b : Buf} (h : ∃ pre post, Rep b.data pre post) (op : Op) (ho : op.Ordered) :
    ∃ b', runAny S A b op = .ok b' ∧ Kept b b' := by
  cases op with
  | simple op =>
    obtain ⟨b1, o1, h1, k1, _⟩ := runOp_safe (S := S) (A := A) h op ho
    exact ⟨b1, by simp only [runAny, h1, Except.ok_bind']; rfl, k1⟩
  | group ops => exact runAll_safe ops h ho

theorem reverseAny_safe {b : Buf} (h : ∃ pre post, Rep b.data pre post) (op : Op) :
    ∃ b', reverseAny S A b op = .ok b' ∧ Kept b b' := by
  cases op with
  | simple op => exact reverseOp_safe h op
  | group ops => exact reverseAll_safe ops.reverse h

theorem store_sane {b b1 : Buf} {op : SOp} (h : Sane b) (k : Kept b b1) (ho : op.Ordered) : Sane (b1.store op) := by
  have hs := k.sane h
  unfold store
  cases hg : b1.group with
  | none =>
    refine ⟨hs.data, ?_, ?_, ?_⟩
    · intro x hx
      simp only [History.add, List.mem_cons] at hx
      rcases hx with rfl | hx
      · exact ho
      · exact hs.previous x hx
    · intro x hx; simp [History.add] at hx
    · intro ops hx; cases hx
  | some ops =>
    refine ⟨hs.data, hs.previous, hs.next, ?_⟩
    intro ops' hx x hm
    simp only [Option.some.injEq] at hx
    subst hx
    rcases List.mem_append.mp hm with hm | hm
    · exact hs.group ops hg x hm
    · simp at hm; subst hm; exact ho

theorem runStore_safe {b : Buf} (h : Sane b) (op : SOp) (ho : op.Ordered) :
    ∃ b', (runOp S A b op >>= fun r => (pure (r.1.store r.2) : R Buf)) = .ok b' ∧ Sane b' := by
  obtain ⟨b1, o1, h1, k1, ho1⟩ := runOp_safe (S := S) (A := A) h.data op ho
  exact ⟨_, by rw [h1]; rfl, store_sane h k1 ho1⟩

theorem replace_safe {b : Buf} (h : Sane b) (t : Text) : ∃ b', replace S A b t = .ok b' ∧ Sane b' := by
  obtain ⟨old, ho⟩ := h.toStr
  unfold replace
  rw [ho, Except.ok_bind']
  split
  · exact ⟨b, rfl, h⟩
  · exact runStore_safe h (.replace old t) trivial

theorem pop_safe {b : Buf} (h : Sane b) :
    ∃ b', (match b.history.back.1 with
      | some op => reverseAny S A { b with history := b.history.back.2 } op
      | none => pure { b with history := b.history.back.2 }) = .ok b' ∧ Sane b' := by
  unfold History.back
  cases hp : b.history.previous with
  | nil => exact ⟨_, rfl, h⟩
  | cons op ops =>
    simp only
    obtain ⟨b', h1, k⟩ := reverseAny_safe (S := S) (A := A) (b := { b with history := { b.history with previous := ops, next := op :: b.history.next } }) h.data op
    refine ⟨b', h1, k.sane ⟨h.data, ?_, ?_, h.group⟩⟩
    · intro x hx; exact h.previous x (by rw [hp]; simp; right; exact hx)
    · intro x hx
      simp only [List.mem_cons] at hx
      rcases hx with rfl | hx
      · exact h.previous _ (by rw [hp]; simp)
      · exact h.next x hx

theorem exec_safe {b : Buf} (h : Sane b) (c : Cmd) : ∃ b', exec S A b c = .ok b' ∧ Sane b' := by
  cases c with
  | insert s => exact runStore_safe h (.insert s b.cursor.position) trivial
  | delete =>
    obtain ⟨pre, post, hr⟩ := h.data
    simp only [exec, delete, GapBuffer.inBounds_rep hr, Except.ok_bind']
    exact runStore_safe h (.delete none (Range.new _ _)) (range_new_ok _ _)
  | deleteRange p q => exact runStore_safe h (.delete none (Range.new p q)) (range_new_ok p q)
  | replace t => exact replace_safe h t
  | undo =>
    have hn : Sane { b with group := none } := ⟨h.data, h.previous, h.next, by simp⟩
    simp only [exec, undo]
    cases hg : b.group with
    | none => exact pop_safe hn
    | some ops =>
      simp only
      split
      · exact pop_safe hn
      · obtain ⟨b', h1, k⟩ := reverseAny_safe (S := S) (A := A) hn.data (.group ops)
        exact ⟨b', h1, k.sane hn⟩
  | redo =>
    simp only [exec, redo, History.forth]
    cases hp : b.history.next with
    | nil => exact ⟨_, rfl, h⟩
    | cons op ops =>
      simp only
      obtain ⟨b', h1, k⟩ := runAny_safe (S := S) (A := A) (b := { b with history := { b.history with next := ops, previous := op :: b.history.previous } }) h.data op
        (h.next _ (by rw [hp]; simp))
      refine ⟨b', h1, k.sane ⟨h.data, ?_, ?_, h.group⟩⟩
      · intro x hx
        simp only [List.mem_cons] at hx
        rcases hx with rfl | hx
        · exact h.next _ (by rw [hp]; simp)
        · exact h.previous x hx
      · intro x hx; exact h.next x (by rw [hp]; simp; right; exact hx)
  | startGroup =>
    refine ⟨_, rfl, ?_⟩
    unfold startGroup
    cases hg : b.group with
    | some ops => exact h
    | none => exact ⟨h.data, h.previous, h.next, by simp⟩
  | endGroup =>
    refine ⟨_, rfl, ?_⟩
    unfold endGroup
    cases hg : b.group with
    | none => exact h
    | some ops =>
      simp only
      split
      · exact ⟨h.data, h.previous, h.next, by simp⟩
      · refine ⟨h.data, ?_, ?_, by simp⟩
        · intro x hx
          simp only [History.add, List.mem_cons] at hx
          rcases hx with rfl | hx
          · exact h.group ops hg
          · exact h.previous x hx
        · intro x hx; simp [History.add] at hx
  | move m =>
    obtain ⟨pre, post, hr⟩ := h.data
    obtain ⟨c', h1, _⟩ := Cursor.move_rep (S := S) hr b.cursor m
    exact ⟨{ b with cursor := c' }, by simp only [exec, h1, Except.ok_bind']; rfl, h.data, h.previous, h.next, h.group⟩
  | setCursor p => exact ⟨_, rfl, h.data, h.previous, h.next, h.group⟩
  | setCallback v => exact ⟨_, rfl, h.data, h.previous, h.next, h.group⟩
  | saved => exact ⟨_, rfl, h.data, h.previous, h.next, h.group⟩
  | reload t =>
    obtain ⟨b1, h1, k1⟩ := replace_safe (S := S) (A := A) h t
    exact ⟨b1.setMark, by simp only [exec, reloadWith, h1, Except.ok_bind']; rfl, k1.data, k1.previous, k1.next, k1.group⟩

theorem execAll_safe (cs : List Cmd) {b : Buf} (h : Sane b) : ∃ b', execAll S A b cs = .ok b' ∧ Sane b' := by
  induction cs generalizing b with
  | nil => exact ⟨b, rfl, h⟩
  | cons c cs ih =>
    obtain ⟨b1, h1, k1⟩ := exec_safe (S := S) (A := A) h c
    obtain ⟨b2, h2, k2⟩ := ih k1
    exact ⟨b2, by simp only [execAll, h1, Except.ok_bind', h2], k2⟩

theorem sane_fromContent (k : Nat) (t : Text) : Sane (Buf.fromContent A k t) :=
  ⟨⟨_, _, GapBuffer.new_rep k t⟩, by simp [fromContent, History.new, History.setMark], by simp [fromContent, History.new, History.setMark], by simp [fromContent]⟩

theorem sane_new (k : Nat) : Sane (Buf.new A k) :=
  ⟨⟨_, _, GapBuffer.new_rep k []⟩, by simp [Buf.new, History.new], by simp [Buf.new, History.new], by simp [Buf.new]⟩

end Scribe
