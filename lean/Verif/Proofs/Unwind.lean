import Verif.Spec.Unwind
import Verif.Proofs.Safe
import Verif.Proofs.Desktop
namespace Scribe.Unwind
open Scribe (Buf SOp Op)
open Scribe.Buf (Cmd)
variable {S : Segmenter} {A : Alloc} {fate : Fate}

/-- Some callback panics. -/
def Bad (fate : Fate) (b : Buf) : Prop := b.callback = true ∧ ∃ n, fate n = true

/-- The call does what the plain one does; if it is unwound, it is at the end. -/
def Follows (fate : Fate) {α : Type} (out : α → Buf) (x : R (Out α)) (y : R α) : Prop :=
  (∃ e, x = .error e ∧ y = .error e) ∨ ∃ a, y = .ok a ∧ (x = .ok (.done a) ∨ x = .ok (.unwound (out a)) ∧ Bad fate (out a))

theorem follows_report (b : Buf) (p : Position) : Follows fate id (.ok (report fate b p)) (.ok (b.report p)) := by
  right
  refine ⟨_, rfl, ?_⟩
  unfold report Buf.report
  split
  · rename_i hc
    dsimp only; split
    · rename_i hf
      exact Or.inr ⟨rfl, hc, _, hf⟩
    · exact Or.inl rfl
  · exact Or.inl rfl

theorem Follows.bind {α β : Type} {out : β → Buf} (m : R α) {f : α → R (Out β)} {g : α → R β} (h : ∀ a, Follows fate out (f a) (g a)) :
    Follows fate out (m >>= f) (m >>= g) := by
  cases m with
  | error e => exact Or.inl ⟨e, rfl, rfl⟩
  | ok a => exact h a

theorem Follows.map {α β : Type} {out : α → Buf} {out' : β → Buf} {x : R (Out α)} {y : R α} (h : Follows fate out x y) (f : α → β)
    (ho : ∀ a, out' (f a) = out a) : Follows fate out' (andThen x fun a => return .done (f a)) (y >>= fun a => return f a) := by
  rcases h with ⟨e, rfl, rfl⟩ | ⟨a, rfl, rfl | ⟨rfl, hb⟩⟩
  · exact Or.inl ⟨e, rfl, rfl⟩
  · exact Or.inr ⟨f a, rfl, Or.inl rfl⟩
  · exact Or.inr ⟨f a, rfl, Or.inr ⟨by rw [ho]; rfl, by rw [ho]; exact hb⟩⟩

theorem replaceContent_follows (t : Text) (b : Buf) : Follows fate id (replaceContent S A fate t b) (Buf.replaceContent S A t b) := by
  unfold replaceContent Buf.replaceContent
  refine Follows.bind _ fun r => ?_
  obtain ⟨ok, c⟩ := r
  cases ok
  · exact Follows.bind _ fun r => follows_report _ _
  · exact follows_report _ _

theorem runOp_follows (b : Buf) (op : SOp) : Follows fate Prod.fst (runOp S A fate b op) (Buf.runOp S A b op) := by
  cases op with
  | insert s p =>
    refine Follows.bind _ fun g => ?_
    exact (follows_report _ _).map (fun b => (b, SOp.insert s p)) fun _ => rfl
  | delete o r =>
    refine Follows.bind _ fun t => Follows.bind _ fun g => ?_
    exact (follows_report _ _).map (fun b => (b, SOp.delete t r)) fun _ => rfl
  | replace o n => exact (replaceContent_follows n b).map (fun b => (b, SOp.replace o n)) fun _ => rfl

theorem reverseOp_follows (b : Buf) (op : SOp) : Follows fate id (reverseOp S A fate b op) (Buf.reverseOp S A b op) := by
  have same : Follows fate id (.ok (.done b)) (.ok b : R Buf) := Or.inr ⟨b, rfl, Or.inl rfl⟩
  cases op with
  | insert s p =>
    refine Follows.bind _ fun q => ?_
    cases q with
    | none => exact same
    | some q => exact Follows.bind _ fun g => follows_report _ _
  | delete o r =>
    cases o with
    | none => exact same
    | some t => exact Follows.bind _ fun g => follows_report _ _
  | replace o n => exact replaceContent_follows o b

/-- All operations, or those up to the one whose callback panics. -/
theorem runAll_follows (ops : List SOp) (b : Buf) :
    (∃ e, runAll S A fate b ops = .error e ∧ Buf.runAll S A b ops = .error e) ∨
    (∃ b', runAll S A fate b ops = .ok (.done b') ∧ Buf.runAll S A b ops = .ok b') ∨
    ∃ xs ys b', ops = xs ++ ys ∧ xs ≠ [] ∧ runAll S A fate b ops = .ok (.unwound b') ∧ Buf.runAll S A b xs = .ok b' ∧ Bad fate b' := by
  induction ops generalizing b with
  | nil => exact Or.inr (Or.inl ⟨b, rfl, rfl⟩)
  | cons op ops ih =>
    rcases runOp_follows (S := S) (A := A) (fate := fate) b op with ⟨e, h1, h2⟩ | ⟨r, h1, h2 | ⟨h2, hb⟩⟩
    · exact Or.inl ⟨e, by rw [runAll, h1]; rfl, by rw [Buf.runAll, h2]; rfl⟩
    · have e1 : runAll S A fate b (op :: ops) = runAll S A fate r.1 ops := by rw [runAll, h2]; rfl
      have e2 : ∀ xs, Buf.runAll S A b (op :: xs) = Buf.runAll S A r.1 xs := fun xs => by rw [Buf.runAll, h1]; rfl
      rw [e1, e2]
      rcases ih r.1 with h | h | ⟨xs, ys, b', rfl, _, k1, k2, k3⟩
      · exact Or.inl h
      · exact Or.inr (Or.inl h)
      · exact Or.inr (Or.inr ⟨op :: xs, ys, b', rfl, by simp, k1, by rw [e2, k2], k3⟩)
    · exact Or.inr (Or.inr ⟨[op], ops, r.1, rfl, by simp, by rw [runAll, h2]; rfl, by rw [Buf.runAll, h1]; rfl, hb⟩)

theorem reverseAll_follows (ops : List SOp) (b : Buf) :
    (∃ e, reverseAll S A fate b ops = .error e ∧ Buf.reverseAll S A b ops = .error e) ∨
    (∃ b', reverseAll S A fate b ops = .ok (.done b') ∧ Buf.reverseAll S A b ops = .ok b') ∨
    ∃ xs ys b', ops = xs ++ ys ∧ xs ≠ [] ∧ reverseAll S A fate b ops = .ok (.unwound b') ∧ Buf.reverseAll S A b xs = .ok b' ∧ Bad fate b' := by
  induction ops generalizing b with
  | nil => exact Or.inr (Or.inl ⟨b, rfl, rfl⟩)
  | cons op ops ih =>
    rcases reverseOp_follows (S := S) (A := A) (fate := fate) b op with ⟨e, h1, h2⟩ | ⟨r, h1, h2 | ⟨h2, hb⟩⟩
    · exact Or.inl ⟨e, by rw [reverseAll, h1]; rfl, by rw [Buf.reverseAll, h2]; rfl⟩
    · have e1 : reverseAll S A fate b (op :: ops) = reverseAll S A fate r ops := by rw [reverseAll, h2]; rfl
      have e2 : ∀ xs, Buf.reverseAll S A b (op :: xs) = Buf.reverseAll S A r xs := fun xs => by rw [Buf.reverseAll, h1]; rfl
      rw [e1, e2]
      rcases ih r with h | h | ⟨xs, ys, b', rfl, _, k1, k2, k3⟩
      · exact Or.inl h
      · exact Or.inr (Or.inl h)
      · exact Or.inr (Or.inr ⟨op :: xs, ys, b', rfl, by simp, k1, by rw [e2, k2], k3⟩)
    · exact Or.inr (Or.inr ⟨[op], ops, r, rfl, by simp, by rw [reverseAll, h2]; rfl, by rw [Buf.reverseAll, h1]; rfl, hb⟩)

/-! ### The operations do not look at history and group -/

/-- The buffer with another history and group. -/
def other (b : Buf) (h : History) (g : Option (List SOp)) : Buf := { b with history := h, group := g }

theorem report_other (b : Buf) (p : Position) (h g) : (other b h g).report p = other (b.report p) h g := by
  unfold Buf.report other; dsimp only; split <;> rfl

theorem bind_map {α β γ : Type} (m : R α) (f : α → R β) (k : β → γ) : (m >>= f).map k = m >>= fun a => (f a).map k := by
  cases m <;> rfl

theorem replaceContent_other (b : Buf) (t : Text) (h g) :
    Buf.replaceContent S A t (other b h g) = (Buf.replaceContent S A t b).map (other · h g) := by
  unfold Buf.replaceContent
  dsimp only
  rw [bind_map]
  show (Cursor.moveTo S _ _ b.cursor.position >>= _) = _
  congr 1; funext r
  obtain ⟨ok, c⟩ := r
  have e : ∀ c, ({ other b h g with data := GapBuffer.new A b.data.clock t, cursor := c } : Buf).report Position.new =
      other (({ b with data := GapBuffer.new A b.data.clock t, cursor := c } : Buf).report Position.new) h g := fun c =>
    report_other { b with data := GapBuffer.new A b.data.clock t, cursor := c } Position.new h g
  cases ok
  · simp only [Bool.not_false, if_true, bind_map]
    show (Cursor.moveTo S _ _ ⟨b.cursor.position.line, 0⟩ >>= _) = _
    congr 1; funext r
    exact congrArg Except.ok (e r.2)
  · exact congrArg Except.ok (e c)

theorem reverseOp_other (b : Buf) (op : SOp) (h g) : Buf.reverseOp S A (other b h g) op = (Buf.reverseOp S A b op).map (other · h g) := by
  cases op with
  | insert s p =>
    unfold Buf.reverseOp
    dsimp only
    rw [bind_map]
    congr 1; funext q
    cases q with
    | none => rfl
    | some q =>
      dsimp only
      rw [bind_map]
      congr 1; funext d
      exact congrArg Except.ok (report_other { b with data := d } p h g)
  | delete o r =>
    cases o with
    | none => rfl
    | some t =>
      unfold Buf.reverseOp
      dsimp only
      rw [bind_map]
      congr 1; funext d
      exact congrArg Except.ok (report_other { b with data := d } r.start h g)
  | replace o n => exact replaceContent_other b o h g

theorem runOp_other (b : Buf) (op : SOp) (h g) :
    Buf.runOp S A (other b h g) op = (Buf.runOp S A b op).map fun r => (other r.1 h g, r.2) := by
  cases op with
  | insert s p =>
    unfold Buf.runOp
    dsimp only
    rw [bind_map]
    congr 1; funext d
    exact congrArg (fun b => Except.ok (b, _)) (report_other { b with data := d } p h g)
  | delete o r =>
    unfold Buf.runOp
    dsimp only
    rw [bind_map]
    congr 1; funext t
    rw [bind_map]
    congr 1; funext d
    exact congrArg (fun b => Except.ok (b, _)) (report_other { b with data := d } r.start h g)
  | replace o n =>
    unfold Buf.runOp
    dsimp only
    rw [replaceContent_other]
    cases Buf.replaceContent S A n b <;> rfl

theorem reverseAll_other (ops : List SOp) (b : Buf) (h g) :
    Buf.reverseAll S A (other b h g) ops = (Buf.reverseAll S A b ops).map (other · h g) := by
  induction ops generalizing b with
  | nil => rfl
  | cons op ops ih =>
    rw [Buf.reverseAll, Buf.reverseAll, reverseOp_other]
    cases Buf.reverseOp S A b op with
    | error e => rfl
    | ok b' => exact ih b'

theorem runAll_other (ops : List SOp) (b : Buf) (h g) :
    Buf.runAll S A (other b h g) ops = (Buf.runAll S A b ops).map (other · h g) := by
  induction ops generalizing b with
  | nil => rfl
  | cons op ops ih =>
    rw [Buf.runAll, Buf.runAll, runOp_other]
    cases Buf.runOp S A b op with
    | error e => rfl
    | ok r => exact ih r.1

/-! ### Edits -/

/-- `run` keeps history and group. -/
theorem runOp_keeps {b b' : Buf} {op op' : SOp} (h : Buf.runOp S A b op = .ok (b', op')) : b'.history = b.history ∧ b'.group = b.group := by
  have e := runOp_other (S := S) (A := A) b op b.history b.group
  have hb : other b b.history b.group = b := rfl
  rw [hb, h] at e
  have := congrArg Prod.fst (Except.ok.inj e)
  dsimp only at this
  rw [this]; exact ⟨rfl, rfl⟩

/-- The buffer with the history and group of another. -/
def forgets (b b' : Buf) : Buf := other b' b.history b.group

/-- An unwound edit: all is done but storing the operation. -/
theorem edit_follows (b : Buf) (op : SOp) :
    Follows fate (forgets b) (edit S A fate b op) (Buf.runOp S A b op >>= fun r => (return r.1.store r.2 : R Buf)) := by
  unfold edit
  rcases runOp_follows (S := S) (A := A) (fate := fate) b op with ⟨e, h1, h2⟩ | ⟨r, h1, h2 | ⟨h2, hb⟩⟩
  · exact Or.inl ⟨e, by rw [h1]; rfl, by rw [h2]; rfl⟩
  · exact Or.inr ⟨r.1.store r.2, by rw [h1]; rfl, Or.inl (by rw [h2]; rfl)⟩
  · obtain ⟨k1, k2⟩ := runOp_keeps (b' := r.1) (op' := r.2) h1
    have : forgets b (r.1.store r.2) = r.1 := by
      unfold forgets
      rw [← k1, ← k2]
      rcases r with ⟨⟨d, c, h, g, f, l⟩, op⟩
      cases g <;> rfl
    exact Or.inr ⟨r.1.store r.2, by rw [h1]; rfl, Or.inr ⟨by rw [h2, this]; rfl, by rw [this]; exact hb⟩⟩

theorem replace_follows (b : Buf) (t : Text) : Follows fate (forgets b) (replace S A fate b t) (Buf.replace S A b t) := by
  unfold replace Buf.replace
  refine Follows.bind _ fun old => ?_
  split
  · exact Or.inr ⟨b, rfl, Or.inl rfl⟩
  · exact edit_follows b _

theorem exec_edits (b : Buf) (c : Cmd) (hc : Edits c) : Follows fate (forgets b) (exec S A fate b c) (Buf.exec S A b c) := by
  cases c with
  | insert s => exact edit_follows b _
  | delete => exact Follows.bind _ fun r => edit_follows b _
  | deleteRange p q => exact edit_follows b _
  | replace t => exact replace_follows b t
  | reload t => exact (replace_follows b t).map Buf.setMark fun _ => rfl
  | _ => cases hc

/-! ### All calls -/

theorem report_callback (b : Buf) (p : Position) : (b.report p).callback = b.callback := by unfold Buf.report; split <;> rfl

theorem replaceContent_callback {t : Text} {b b' : Buf} (h : Buf.replaceContent S A t b = .ok b') : b'.callback = b.callback := by
  unfold Buf.replaceContent at h
  dsimp only at h
  obtain ⟨⟨ok, c⟩, _, h⟩ := Except.bind_inv h
  cases ok
  · obtain ⟨r, _, h⟩ := Except.bind_inv h
    cases h; exact report_callback _ _
  · cases h; exact report_callback _ _

theorem runOp_callback {b b' : Buf} {op op' : SOp} (h : Buf.runOp S A b op = .ok (b', op')) : b'.callback = b.callback := by
  cases op with
  | insert s p => obtain ⟨g, _, h⟩ := Except.bind_inv h; cases h; exact report_callback _ _
  | delete o r =>
    obtain ⟨g, _, h⟩ := Except.bind_inv h
    obtain ⟨g, _, h⟩ := Except.bind_inv h
    cases h; exact report_callback _ _
  | replace o n => obtain ⟨g, h1, h⟩ := Except.bind_inv h; cases h; exact replaceContent_callback h1

theorem reverseOp_callback {b b' : Buf} {op : SOp} (h : Buf.reverseOp S A b op = .ok b') : b'.callback = b.callback := by
  cases op with
  | insert s p =>
    obtain ⟨q, _, h⟩ := Except.bind_inv h
    cases q with
    | none => cases h; rfl
    | some q => obtain ⟨g, _, h⟩ := Except.bind_inv h; cases h; exact report_callback _ _
  | delete o r =>
    cases o with
    | none => cases h; rfl
    | some t => obtain ⟨g, _, h⟩ := Except.bind_inv h; cases h; exact report_callback _ _
  | replace o n => exact replaceContent_callback h

theorem runAll_callback (ops : List SOp) {b b' : Buf} (h : Buf.runAll S A b ops = .ok b') : b'.callback = b.callback := by
  induction ops generalizing b with
  | nil => cases h; rfl
  | cons op ops ih =>
    obtain ⟨⟨b1, o⟩, h1, h⟩ := Except.bind_inv h
    rw [ih h, runOp_callback h1]

theorem reverseAll_callback (ops : List SOp) {b b' : Buf} (h : Buf.reverseAll S A b ops = .ok b') : b'.callback = b.callback := by
  induction ops generalizing b with
  | nil => cases h; rfl
  | cons op ops ih =>
    obtain ⟨b1, h1, h⟩ := Except.bind_inv h
    rw [ih h, reverseOp_callback h1]

theorem store_callback {b b' : Buf} {op : SOp} (h : (Buf.runOp S A b op >>= fun r => (return r.1.store r.2 : R Buf)) = .ok b') :
    b'.callback = b.callback := by
  obtain ⟨⟨b1, o⟩, h1, h⟩ := Except.bind_inv h
  cases h
  rw [← runOp_callback h1]
  unfold Buf.store; dsimp only; split <;> rfl

theorem replace_callback {b b' : Buf} {t : Text} (h : Buf.replace S A b t = .ok b') : b'.callback = b.callback := by
  obtain ⟨old, _, h⟩ := Except.bind_inv h
  split at h
  · cases h; rfl
  · exact store_callback h

theorem exec_callback {b b' : Buf} {c : Cmd} (hc : Edits c) (h : Buf.exec S A b c = .ok b') : b'.callback = b.callback := by
  cases c with
  | insert s => exact store_callback h
  | delete => obtain ⟨_, _, h⟩ := Except.bind_inv h; exact store_callback h
  | deleteRange p q => exact store_callback h
  | replace t => exact replace_callback h
  | reload t => obtain ⟨b1, h1, h⟩ := Except.bind_inv h; cases h; have k := replace_callback h1; exact k
  | _ => cases hc

/-- Both fail, both return the same, or this one is unwound by a callback. -/
def Same (fate : Fate) (b : Buf) (x : R (Out Buf)) (y : R Buf) : Prop :=
  (∃ e, x = .error e ∧ y = .error e) ∨ (∃ b', x = .ok (.done b') ∧ y = .ok b') ∨ ∃ b', x = .ok (.unwound b') ∧ Bad fate b

theorem reverseAny_same (b : Buf) (op : Op) : Same fate b (reverseAny S A fate b op) (Buf.reverseAny S A b op) := by
  cases op with
  | simple o =>
    rcases reverseOp_follows (S := S) (A := A) (fate := fate) b o with ⟨e, h1, h2⟩ | ⟨b1, h1, h2 | ⟨h2, hb, hn⟩⟩
    · exact Or.inl ⟨e, h1, h2⟩
    · exact Or.inr (Or.inl ⟨b1, h2, h1⟩)
    · exact Or.inr (Or.inr ⟨b1, h2, by rw [← reverseOp_callback h1]; exact hb, hn⟩)
  | group ops =>
    rcases reverseAll_follows (S := S) (A := A) (fate := fate) ops.reverse b with h | h | ⟨xs, ys, b1, _, _, h1, h2, hb, hn⟩
    · exact Or.inl h
    · exact Or.inr (Or.inl h)
    · exact Or.inr (Or.inr ⟨b1, h1, by rw [← reverseAll_callback _ h2]; exact hb, hn⟩)

theorem runAny_same (b : Buf) (op : Op) : Same fate b (runAny S A fate b op) (Buf.runAny S A b op) := by
  cases op with
  | simple o =>
    rcases runOp_follows (S := S) (A := A) (fate := fate) b o with ⟨e, h1, h2⟩ | ⟨r, h1, h2 | ⟨h2, hb, hn⟩⟩
    · exact Or.inl ⟨e, by rw [runAny, h1]; rfl, by rw [Buf.runAny, h2]; rfl⟩
    · exact Or.inr (Or.inl ⟨r.1, by rw [runAny, h2]; rfl, by rw [Buf.runAny, h1]; rfl⟩)
    · exact Or.inr (Or.inr ⟨r.1, by rw [runAny, h2]; rfl, by rw [← runOp_callback (b' := r.1) (op' := r.2) h1]; exact hb, hn⟩)
  | group ops =>
    rcases runAll_follows (S := S) (A := A) (fate := fate) ops b with h | h | ⟨xs, ys, b1, _, _, h1, h2, hb, hn⟩
    · exact Or.inl h
    · exact Or.inr (Or.inl h)
    · exact Or.inr (Or.inr ⟨b1, h1, by rw [← runAll_callback _ h2]; exact hb, hn⟩)

/-- `undo` reverses one step, if there is one. -/
theorem undo_form (b : Buf) :
    (undone b = none ∧ undo S A fate b = .ok (.done { b with group := none }) ∧ Buf.undo S A b = .ok { b with group := none }) ∨
    ∃ op, undone b = some op ∧ undo S A fate b = reverseAny S A fate (other b (undoneHistory b) none) op ∧
      Buf.undo S A b = Buf.reverseAny S A (other b (undoneHistory b) none) op := by
  rcases b with ⟨d, c, ⟨prev, next, mark⟩, g, f, l⟩
  rcases g with _ | (_ | ⟨o, os⟩)
  · cases prev with
    | nil => exact Or.inl ⟨rfl, rfl, rfl⟩
    | cons op ops => exact Or.inr ⟨op, rfl, rfl, rfl⟩
  · cases prev with
    | nil => exact Or.inl ⟨rfl, rfl, rfl⟩
    | cons op ops => exact Or.inr ⟨op, rfl, rfl, rfl⟩
  · exact Or.inr ⟨.group (o :: os), rfl, rfl, rfl⟩

theorem redo_form (b : Buf) :
    (b.history.next.head? = none ∧ redo S A fate b = .ok (.done b) ∧ Buf.redo S A b = .ok b) ∨
    ∃ op, b.history.next.head? = some op ∧ redo S A fate b = runAny S A fate (other b b.history.forth.2 b.group) op ∧
      Buf.redo S A b = Buf.runAny S A (other b b.history.forth.2 b.group) op := by
  rcases b with ⟨d, c, ⟨prev, next, mark⟩, g, f, l⟩
  cases next with
  | nil => exact Or.inl ⟨rfl, rfl, rfl⟩
  | cons op ops => exact Or.inr ⟨op, rfl, rfl, rfl⟩

theorem exec_same (b : Buf) (c : Cmd) : Same fate b (exec S A fate b c) (Buf.exec S A b c) := by
  have ed : Edits c → Same fate b (exec S A fate b c) (Buf.exec S A b c) := fun hc => by
    rcases exec_edits (S := S) (A := A) (fate := fate) b c hc with h | ⟨b1, h1, h2 | ⟨h2, hb⟩⟩
    · exact Or.inl h
    · exact Or.inr (Or.inl ⟨b1, h2, h1⟩)
    · refine Or.inr (Or.inr ⟨_, h2, ?_, hb.2⟩)
      rw [← exec_callback hc h1]; exact hb.1
  cases c with
  | insert _ | delete | deleteRange _ _ | replace _ | reload _ => exact ed trivial
  | undo =>
    rcases undo_form (S := S) (A := A) (fate := fate) b with ⟨_, h1, h2⟩ | ⟨op, _, h1, h2⟩
    · exact Or.inr (Or.inl ⟨_, h1, h2⟩)
    · simp only [exec, Buf.exec, h1, h2]
      exact reverseAny_same (other b (undoneHistory b) none) op
  | redo =>
    rcases redo_form (S := S) (A := A) (fate := fate) b with ⟨_, h1, h2⟩ | ⟨op, _, h1, h2⟩
    · exact Or.inr (Or.inl ⟨_, h1, h2⟩)
    · simp only [exec, Buf.exec, h1, h2]
      exact runAny_same (other b b.history.forth.2 b.group) op
  | move m =>
    simp only [exec, Buf.exec]
    cases Cursor.move S b.data b.cursor m with
    | error e => exact Or.inl ⟨e, rfl, rfl⟩
    | ok c => exact Or.inr (Or.inl ⟨_, rfl, rfl⟩)
  | _ => exact Or.inr (Or.inl ⟨_, rfl, rfl⟩)

theorem exec_done {b b' : Buf} {c : Cmd} (h : exec S A fate b c = .ok (.done b')) : Buf.exec S A b c = .ok b' := by
  rcases exec_same (S := S) (A := A) (fate := fate) b c with ⟨e, h1, _⟩ | ⟨b1, h1, h2⟩ | ⟨b1, h1, _⟩
  · rw [h1] at h; cases h
  · rw [h1] at h; cases h; exact h2
  · rw [h1] at h; cases h

theorem exec_quiet {b : Buf} (h : b.callback = false ∨ ∀ n, fate n = false) (c : Cmd) :
    exec S A fate b c = (Buf.exec S A b c).map .done := by
  rcases exec_same (S := S) (A := A) (fate := fate) b c with ⟨e, h1, h2⟩ | ⟨b1, h1, h2⟩ | ⟨b1, _, hb, n, hn⟩
  · rw [h1, h2]; rfl
  · rw [h1, h2]; rfl
  · rcases h with h | h
    · rw [h] at hb; cases hb
    · rw [h n] at hn; cases hn

theorem undo_unwound {b b' : Buf} (h : undo S A fate b = .ok (.unwound b')) :
    b'.group = none ∧ b'.history = undoneHistory b ∧
    ((∃ op, undone b = some (.simple op) ∧ Buf.undo S A b = .ok b') ∨
     ∃ xs ys b1, undone b = some (.group (xs ++ ys)) ∧ ys ≠ [] ∧ Buf.undo S A { b with group := some ys } = .ok b1 ∧
      b'.data = b1.data ∧ b'.cursor = b1.cursor ∧ b'.log = b1.log) := by
  rcases undo_form (S := S) (A := A) (fate := fate) b with ⟨_, h1, _⟩ | ⟨op, hu, h1, h2⟩
  · rw [h1] at h; cases h
  rw [h1] at h
  rw [h2]
  generalize undoneHistory b = hist at h h2
  cases op with
  | simple o =>
    rcases reverseOp_follows (S := S) (A := A) (fate := fate) (other b hist none) o with ⟨e, h1, _⟩ | ⟨b1, h1, h2 | ⟨h2, _⟩⟩
    · rw [reverseAny, h1] at h; cases h
    · rw [reverseAny, h2] at h; cases h
    · rw [reverseAny, h2] at h
      obtain rfl := Out.unwound.inj (Except.ok.inj h)
      have hk2 := h1
      rw [reverseOp_other] at h1
      cases hr : Buf.reverseOp S A b o with
      | error e => rw [hr] at h1; cases h1
      | ok b2 =>
        rw [hr] at h1
        have e : other b2 hist none = b1 := Except.ok.inj h1
        subst e
        exact ⟨rfl, rfl, Or.inl ⟨o, hu, hk2⟩⟩
  | group ops =>
    rcases reverseAll_follows (S := S) (A := A) (fate := fate) ops.reverse (other b hist none) with
      ⟨e, h1, _⟩ | ⟨b1, h1, _⟩ | ⟨xs, ys, b1, hops, hne, h1, h2, _⟩
    · rw [reverseAny, h1] at h; cases h
    · rw [reverseAny, h1] at h; cases h
    · rw [reverseAny, h1] at h
      obtain rfl := Out.unwound.inj (Except.ok.inj h)
      have hk' := reverseAll_other (S := S) (A := A) xs b b.history none
      rw [reverseAll_other] at h2
      cases hr : Buf.reverseAll S A b xs with
      | error e => rw [hr] at h2; cases h2
      | ok b2 =>
        rw [hr] at h2 hk'
        have e : other b2 hist none = b1 := Except.ok.inj h2
        subst e
        refine ⟨rfl, rfl, Or.inr ⟨ys.reverse, xs.reverse, other b2 b.history none, ?_, by simpa using hne, ?_, rfl, rfl, rfl⟩⟩
        · rw [← List.reverse_append, ← hops, List.reverse_reverse, hu]
        · have hempty : xs.reverse.isEmpty = false := by
            cases hx : xs.reverse with
            | nil => exact absurd (by simpa using hx) hne
            | cons a l => rfl
          simp only [Buf.undo, hempty, Buf.reverseAny, List.reverse_reverse]
          exact hk'

theorem redo_unwound {b b' : Buf} (h : redo S A fate b = .ok (.unwound b')) :
    b'.group = b.group ∧ b'.history = b.history.forth.2 ∧
    ((∃ op, b.history.next.head? = some (.simple op) ∧ Buf.redo S A b = .ok b') ∨
     ∃ xs ys b1, b.history.next.head? = some (.group (xs ++ ys)) ∧ xs ≠ [] ∧
      Buf.redo S A { b with history := { b.history with next := [.group xs] } } = .ok b1 ∧
      b'.data = b1.data ∧ b'.cursor = b1.cursor ∧ b'.log = b1.log) := by
  rcases redo_form (S := S) (A := A) (fate := fate) b with ⟨_, h1, _⟩ | ⟨op, hu, h1, h2⟩
  · rw [h1] at h; cases h
  rw [h1] at h
  rw [h2]
  generalize b.history.forth.2 = hist at h h2
  cases op with
  | simple o =>
    rcases runOp_follows (S := S) (A := A) (fate := fate) (other b hist b.group) o with ⟨e, h1, _⟩ | ⟨r, h1, h2 | ⟨h2, _⟩⟩
    · rw [runAny, h1] at h; cases h
    · rw [runAny, h2] at h; cases h
    · rw [runAny, h2] at h
      obtain rfl := Out.unwound.inj (Except.ok.inj h)
      obtain ⟨k1, k2⟩ := runOp_keeps (b' := r.1) (op' := r.2) h1
      exact ⟨k2, k1, Or.inl ⟨o, hu, by rw [Buf.runAny, h1]; rfl⟩⟩
  | group ops =>
    rcases runAll_follows (S := S) (A := A) (fate := fate) ops (other b hist b.group) with
      ⟨e, h1, _⟩ | ⟨b1, h1, _⟩ | ⟨xs, ys, b1, hops, hne, h1, h2, _⟩
    · rw [runAny, h1] at h; cases h
    · rw [runAny, h1] at h; cases h
    · rw [runAny, h1] at h
      obtain rfl := Out.unwound.inj (Except.ok.inj h)
      rw [runAll_other] at h2
      cases hr : Buf.runAll S A b xs with
      | error e => rw [hr] at h2; cases h2
      | ok b2 =>
        rw [hr] at h2
        have e : other b2 hist b.group = b1 := Except.ok.inj h2
        subst e
        refine ⟨rfl, rfl, Or.inr ⟨xs, ys, other b2 ⟨.group xs :: b.history.previous, [], b.history.mark⟩ b.group, by rw [hu, hops], hne, ?_, rfl, rfl, rfl⟩⟩
        have := runAll_other (S := S) (A := A) xs b ⟨.group xs :: b.history.previous, [], b.history.mark⟩ b.group
        rw [hr] at this
        exact this

/-- Every call leaves a sound buffer. -/
theorem exec_sane {b : Buf} (h : Sane b) (c : Cmd) :
    ∃ o b', exec S A fate b c = .ok o ∧ (o = .done b' ∨ o = .unwound b') ∧ Sane b' := by
  obtain ⟨b1, e1, s1⟩ := exec_safe (S := S) (A := A) h c
  have ed : Edits c → ∃ o b', exec S A fate b c = .ok o ∧ (o = .done b' ∨ o = .unwound b') ∧ Sane b' := fun hc => by
    rcases exec_edits (S := S) (A := A) (fate := fate) b c hc with ⟨e, _, h2⟩ | ⟨b2, h1, h2 | ⟨h2, _⟩⟩
    · rw [h2] at e1; cases e1
    · rw [h1] at e1; cases e1; exact ⟨_, _, h2, Or.inl rfl, s1⟩
    · rw [h1] at e1; cases e1
      exact ⟨_, forgets b b1, h2, Or.inr rfl, s1.data, h.previous, h.next, h.group⟩
  have plain : (∀ b', exec S A fate b c ≠ .ok (.unwound b')) → ∃ o b', exec S A fate b c = .ok o ∧ (o = .done b' ∨ o = .unwound b') ∧ Sane b' := by
    intro hn
    rcases exec_same (S := S) (A := A) (fate := fate) b c with ⟨e, _, h2⟩ | ⟨b2, h1, h2⟩ | ⟨b2, h1, _⟩
    · rw [h2] at e1; cases e1
    · rw [h2] at e1; cases e1; exact ⟨_, _, h1, Or.inl rfl, s1⟩
    · exact absurd h1 (hn b2)
  cases c with
  | insert _ | delete | deleteRange _ _ | replace _ | reload _ => exact ed trivial
  | undo =>
    by_cases hn : ∃ b', exec S A fate b .undo = .ok (.unwound b')
    · obtain ⟨b', hb⟩ := hn
      refine ⟨_, b', hb, Or.inr rfl, ?_⟩
      obtain ⟨k1, k2, k3⟩ := undo_unwound hb
      have hd : ∃ pre post, Rep b'.data pre post := by
        rcases k3 with ⟨_, _, k⟩ | ⟨xs, ys, b2, hu, _, k, k', _⟩
        · have : Buf.exec S A b .undo = .ok b' := k
          rw [this] at e1; cases e1; exact s1.data
        · rw [k']
          have hy : Sane ({ b with group := some ys } : Buf) := by
            refine ⟨h.data, h.previous, h.next, fun ops ho op hop => ?_⟩
            cases ho
            unfold undone at hu
            split at hu
            · rename_i o os hg
              simp only [Option.some.injEq, Op.group.injEq] at hu
              exact h.group _ hg op (by rw [hu]; simp [hop])
            · have := h.previous _ (List.mem_of_mem_head? hu)
              exact this op (by simp [hop])
          obtain ⟨b3, f1, f2⟩ := exec_safe (S := S) (A := A) hy .undo
          have : Buf.exec S A ({ b with group := some ys } : Buf) .undo = .ok b2 := k
          rw [this] at f1; cases f1; exact f2.data
      have hist : (∀ op ∈ (undoneHistory b).previous, op.Ordered) ∧ ∀ op ∈ (undoneHistory b).next, op.Ordered := by
        have back : (∀ op ∈ b.history.back.2.previous, op.Ordered) ∧ ∀ op ∈ b.history.back.2.next, op.Ordered := by
          unfold History.back
          split
          · rename_i op ops hp
            refine ⟨fun o ho => h.previous o (by rw [hp]; simp [ho]), fun o ho => ?_⟩
            rcases List.mem_cons.mp ho with rfl | ho
            · exact h.previous _ (by rw [hp]; simp)
            · exact h.next o ho
          · exact ⟨h.previous, h.next⟩
        unfold undoneHistory
        split
        · exact ⟨h.previous, h.next⟩
        · exact back
      exact ⟨hd, by rw [k2]; exact hist.1, by rw [k2]; exact hist.2, fun ops ho => by rw [k1] at ho; cases ho⟩
    · exact plain fun b' hb => hn ⟨b', hb⟩
  | redo =>
    by_cases hn : ∃ b', exec S A fate b .redo = .ok (.unwound b')
    · obtain ⟨b', hb⟩ := hn
      refine ⟨_, b', hb, Or.inr rfl, ?_⟩
      obtain ⟨k1, k2, k3⟩ := redo_unwound hb
      have hd : ∃ pre post, Rep b'.data pre post := by
        rcases k3 with ⟨_, _, k⟩ | ⟨xs, ys, b2, hu, _, k, k', _⟩
        · have : Buf.exec S A b .redo = .ok b' := k
          rw [this] at e1; cases e1; exact s1.data
        · rw [k']
          have hy : Sane ({ b with history := { b.history with next := [.group xs] } } : Buf) := by
            refine ⟨h.data, h.previous, fun op hop => ?_, h.group⟩
            simp only [List.mem_singleton] at hop
            subst hop
            have := h.next _ (List.mem_of_mem_head? hu)
            exact fun op hop => this op (by simp [hop])
          obtain ⟨b3, f1, f2⟩ := exec_safe (S := S) (A := A) hy .redo
          have : Buf.exec S A ({ b with history := { b.history with next := [.group xs] } } : Buf) .redo = .ok b2 := k
          rw [this] at f1; cases f1; exact f2.data
      have hist : (∀ op ∈ b.history.forth.2.previous, op.Ordered) ∧ ∀ op ∈ b.history.forth.2.next, op.Ordered := by
        unfold History.forth
        split
        · rename_i op ops hp
          refine ⟨fun o ho => ?_, fun o ho => h.next o (by rw [hp]; simp [ho])⟩
          rcases List.mem_cons.mp ho with rfl | ho
          · exact h.next _ (by rw [hp]; simp)
          · exact h.previous o ho
        · exact ⟨h.previous, h.next⟩
      exact ⟨hd, by rw [k2]; exact hist.1, by rw [k2]; exact hist.2, by rw [k1]; exact h.group⟩
    · exact plain fun b' hb => hn ⟨b', hb⟩
  | move m =>
    exact plain fun b' hb => by
      simp only [exec] at hb
      cases hm : Cursor.move S b.data b.cursor m with
      | error e => rw [hm] at hb; cases hb
      | ok c => rw [hm] at hb; cases hb
  | _ => exact plain fun b' hb => (by cases hb)

/-! The reports of a call. -/

/-- Only the last report panics, and only if the call is unwound. -/
def Told (fate : Fate) {α : Type} (log : List Position) (out : α → Buf) (x : R (Out α)) : Prop :=
  (∀ a, x = .ok (.done a) → ∃ ps, (out a).log = log ++ ps ∧ ∀ i, i < ps.length → fate (log.length + i) = false) ∧
  (∀ b, x = .ok (.unwound b) → ∃ ps p, b.log = log ++ ps ++ [p] ∧ fate (log.length + ps.length) = true ∧ ∀ i, i < ps.length → fate (log.length + i) = false)

theorem Told.done {α : Type} {log : List Position} {out : α → Buf} {a : α} (h : (out a).log = log) : Told fate log out (.ok (.done a)) :=
  ⟨fun a' e => (by cases e; exact ⟨[], by simpa using h, fun i hi => absurd hi (Nat.not_lt_zero i)⟩), fun b e => (by cases e)⟩

theorem Told.andThen {α β : Type} {log : List Position} {out : α → Buf} {out' : β → Buf} {x : R (Out α)} {f : α → R (Out β)}
    (h : Told fate log out x) (h' : ∀ a, Told fate (out a).log out' (f a)) : Told fate log out' (andThen x f) := by
  obtain ⟨h1, h2⟩ := h
  cases x with
  | error e => exact ⟨fun a e => (by cases e), fun b e => (by cases e)⟩
  | ok o =>
    cases o with
    | unwound b => exact ⟨fun a e => (by cases e), fun b' e => (by cases e; exact h2 b rfl)⟩
    | done a =>
      obtain ⟨ps, e1, e2⟩ := h1 a rfl
      obtain ⟨k1, k2⟩ := h' a
      have glue : ∀ qs : List Position, (∀ i, i < qs.length → fate ((out a).log.length + i) = false) →
          ∀ i, i < (ps ++ qs).length → fate (log.length + i) = false := by
        intro qs hq i hi
        by_cases hlt : i < ps.length
        · exact e2 i hlt
        · have := hq (i - ps.length) (by rw [List.length_append] at hi; omega)
          rw [e1, List.length_append, Nat.add_assoc, Nat.add_sub_cancel' (by omega)] at this
          exact this
      constructor
      · intro c hc
        obtain ⟨qs, g1, g2⟩ := k1 c hc
        exact ⟨ps ++ qs, by rw [g1, e1, List.append_assoc], glue qs g2⟩
      · intro b hb
        obtain ⟨qs, p, g1, g2, g3⟩ := k2 b hb
        refine ⟨ps ++ qs, p, by rw [g1, e1]; simp, ?_, glue qs g3⟩
        rw [e1, List.length_append, Nat.add_assoc] at g2
        rw [List.length_append]; exact g2

theorem Told.bind {α β : Type} {log : List Position} {out : β → Buf} (m : R α) {f : α → R (Out β)} (h : ∀ a, Told fate log out (f a)) :
    Told fate log out (m >>= f) := by
  cases m with
  | error e => exact ⟨fun a e => (by cases e), fun b e => (by cases e)⟩
  | ok a => exact h a

theorem told_report (b : Buf) (p : Position) : Told fate b.log id (.ok (report fate b p)) := by
  unfold report
  split
  · by_cases hf : fate b.log.length = true
    · simp only [hf, if_true]
      exact ⟨fun a e => (by cases e), fun b' e => (by cases e; exact ⟨[], p, by simp, by simpa using hf, fun i hi => absurd hi (Nat.not_lt_zero i)⟩)⟩
    · simp only [hf]
      refine ⟨fun a e => ?_, fun b' e => (by cases e)⟩
      cases e
      refine ⟨[p], rfl, fun i hi => ?_⟩
      have : i = 0 := by simpa using hi
      subst this
      simpa using hf
  · exact .done rfl

theorem told_replaceContent (t : Text) (b : Buf) : Told fate b.log id (replaceContent S A fate t b) := by
  unfold replaceContent
  refine .bind _ fun r => ?_
  simp only
  split
  · refine .bind _ fun c => ?_
    exact told_report { b with data := _, cursor := c.2 } _
  · exact told_report { b with data := _, cursor := r.2 } _

theorem told_runOp (b : Buf) (op : SOp) : Told fate b.log Prod.fst (runOp S A fate b op) := by
  cases op with
  | insert s p =>
    refine .bind _ fun d => ?_
    exact Told.andThen (told_report { b with data := d } p) fun a => .done rfl
  | delete s r =>
    refine .bind _ fun c => .bind _ fun d => ?_
    exact Told.andThen (told_report { b with data := d } r.start) fun a => .done rfl
  | replace o n => exact Told.andThen (told_replaceContent n b) fun a => .done rfl

theorem told_reverseOp (b : Buf) (op : SOp) : Told fate b.log id (reverseOp S A fate b op) := by
  cases op with
  | insert s p =>
    refine .bind _ fun e => ?_
    cases e with
    | none => exact .done rfl
    | some stop => exact .bind _ fun d => told_report { b with data := d } p
  | delete s r =>
    cases s with
    | none => exact .done rfl
    | some s => exact .bind _ fun d => told_report { b with data := d } r.start
  | replace o n => exact told_replaceContent o b

theorem told_runAll (ops : List SOp) (b : Buf) : Told fate b.log id (runAll S A fate b ops) := by
  induction ops generalizing b with
  | nil => exact .done rfl
  | cons op ops ih => exact Told.andThen (told_runOp b op) fun r => ih r.1

theorem told_reverseAll (ops : List SOp) (b : Buf) : Told fate b.log id (reverseAll S A fate b ops) := by
  induction ops generalizing b with
  | nil => exact .done rfl
  | cons op ops ih => exact Told.andThen (told_reverseOp b op) fun r => ih r

theorem told_edit (b : Buf) (op : SOp) : Told fate b.log id (edit S A fate b op) :=
  Told.andThen (told_runOp b op) fun r => .done (by
    show (r.1.store r.2).log = r.1.log
    unfold Buf.store; split <;> rfl)

theorem told_replace (b : Buf) (t : Text) : Told fate b.log id (replace S A fate b t) := by
  refine .bind _ fun old => ?_
  split
  · exact .done rfl
  · exact told_edit _ _

theorem told_exec (b : Buf) (c : Cmd) : Told fate b.log id (exec S A fate b c) := by
  have rev : ∀ (b : Buf) (op : Op), Told fate b.log id (reverseAny S A fate b op) := by
    intro b op
    cases op with
    | simple op => exact told_reverseOp b op
    | group ops => exact told_reverseAll _ b
  cases c with
  | insert s => exact told_edit _ _
  | delete => exact .bind _ fun _ => told_edit _ _
  | deleteRange p q => exact told_edit _ _
  | replace c => exact told_replace _ _
  | reload c => exact Told.andThen (told_replace b c) fun _ => .done rfl
  | move m => exact .bind _ fun _ => .done rfl
  | startGroup | endGroup => 
    refine .done ?_
    simp only [Buf.startGroup, Buf.endGroup, id]
    repeat' split
    all_goals rfl
  | setCursor _ | setCallback _ | saved => exact .done rfl
  | redo =>
    show Told fate b.log id (redo S A fate b)
    unfold redo
    cases b.history.forth with
    | mk op h =>
      simp only
      cases op with
      | none => exact .done rfl
      | some op =>
        cases op with
        | simple op => exact Told.andThen (told_runOp { b with history := h } op) fun r => .done rfl
        | group ops => exact told_runAll ops { b with history := h }
  | undo =>
    have back : Told fate b.log id (match b.history.back with
        | (op, history) => match op with
          | some op => reverseAny S A fate { b with group := none, history := history } op
          | none => .ok (.done { b with group := none, history := history })) := by
      cases b.history.back with
      | mk op h =>
        simp only
        cases op with
        | none => exact .done rfl
        | some op => exact rev { b with group := none, history := h } op
    show Told fate b.log id (undo S A fate b)
    unfold undo
    simp only
    split
    · split
      · exact back
      · exact rev { b with group := none } _
    · exact back

end Scribe.Unwind
