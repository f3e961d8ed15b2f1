import Verif.Proofs.Unwind
import Verif.Spec.Guarded
/-! # Lemmas for C110 -/
namespace Scribe.Guarded
open Scribe (Buf SOp Op)
open Scribe.Buf (Cmd)
open Unwind (undone undoneHistory other)
variable {S : Segmenter} {A : Alloc}

theorem andThen_done {α β : Type} (a : α) (g : Guard) (f : α → Guard → R (Out β)) : andThen (.ok (.done a g)) f = f a g := rfl
theorem andThen_unwound {α β : Type} (b : Buf) (f : α → Guard → R (Out β)) : andThen (.ok (.unwound b)) f = .ok (.unwound b) := rfl

/-- What an edit leads to. -/
def result {α : Type} (g : Guard) (b : Buf) (stop renew : Bool) (a : α) : Out α :=
  if g ≠ .free ∧ stop = true then .unwound b else .done a (if renew then .free else g)

theorem replaceContent_eq {t : Text} {b b1 : Buf} (h : Buf.replaceContent S A t b = .ok b1) :
    replaceContent S A t b = .ok (.done b1 .free) := by
  simp only [replaceContent, h, Except.ok_bind']; rfl

theorem runOp_eq (g : Guard) {b : Buf} {op : SOp} {r : Buf × SOp} (h : Buf.runOp S A b op = .ok r) :
    runOp S A g b op = .ok (result g b (!fresh op) (fresh op) r) := by
  cases op with
  | insert s p =>
    simp only [Buf.runOp] at h
    cases g <;> simp_all [runOp, writing, result, fresh]
    · cases hd : b.data.insert S A s p with
      | error e => rw [hd] at h; cases h
      | ok d => rw [hd] at h; obtain rfl := Except.ok.inj h; rfl
    all_goals rfl
  | delete c r' =>
    simp only [Buf.runOp] at h
    cases hr : b.data.read S r' with
    | error e => rw [hr] at h; cases h
    | ok c' =>
      rw [hr, Except.ok_bind'] at h
      cases g <;> simp_all [runOp, reading, writing, result, fresh]
      · cases hd : b.data.delete S r' with
        | error e => rw [hd] at h; cases h
        | ok d => rw [hd] at h; obtain rfl := Except.ok.inj h; rfl
      all_goals rfl
  | replace o n =>
    simp only [Buf.runOp] at h
    cases hr : Buf.replaceContent S A n b with
    | error e => rw [hr] at h; cases h
    | ok b1 =>
      rw [hr, Except.ok_bind'] at h
      obtain rfl := Except.ok.inj h
      simp only [runOp, replaceContent_eq hr, andThen_done, result, fresh]
      simp
      rfl

theorem insertEnd_some (s : Text) (p : Position) : ∃ stop, Buf.insertEnd S s p = .ok (some stop) := by
  unfold Buf.insertEnd
  simp only [subU]
  rw [if_pos (by omega), Except.ok_bind']
  split
  · exact ⟨_, rfl⟩
  · rename_i hc
    have : (splitNl s).getLast? ≠ none := by
      intro hn
      rw [List.getLast?_eq_none_iff] at hn
      exact absurd hn (splitNl_ne_nil s)
    split
    · exact ⟨_, rfl⟩
    · rename_i h'; exact absurd h' this

theorem reverseOp_eq (g : Guard) {b b1 : Buf} {op : SOp} (h : Buf.reverseOp S A b op = .ok b1) :
    reverseOp S A g b op = .ok (result g b (!fresh op && !idle op) (fresh op) b1) ∧ (idle op = true → b1 = b) := by
  cases op with
  | insert s p =>
    simp only [Buf.reverseOp] at h
    obtain ⟨stop, hs⟩ := insertEnd_some (S := S) s p
    rw [hs, Except.ok_bind'] at h
    refine ⟨?_, fun hi => by simp [idle] at hi⟩
    simp only [reverseOp, hs, Except.ok_bind']
    cases g <;> simp_all [writing, result, fresh, idle]
    · cases hd : b.data.delete S (Range.new p stop) with
      | error e => rw [hd] at h; cases h
      | ok d => rw [hd] at h; obtain rfl := Except.ok.inj h; rfl
    all_goals rfl
  | delete c r =>
    cases c with
    | none =>
      obtain rfl := Except.ok.inj h
      refine ⟨?_, fun _ => rfl⟩
      simp only [reverseOp, result, fresh, idle]
      simp
      rfl
    | some c =>
      simp only [Buf.reverseOp] at h
      refine ⟨?_, fun hi => by simp [idle] at hi⟩
      cases g <;> simp_all [reverseOp, writing, result, fresh, idle]
      · cases hd : b.data.insert S A c r.start with
        | error e => rw [hd] at h; cases h
        | ok d => rw [hd] at h; obtain rfl := Except.ok.inj h; rfl
      all_goals rfl
  | replace o n =>
    simp only [Buf.reverseOp] at h
    refine ⟨?_, fun hi => by simp [idle] at hi⟩
    simp only [reverseOp, replaceContent_eq h, result, fresh]
    simp

theorem runAll_eq (ops : List SOp) : ∀ (g : Guard) {b b1 : Buf}, Buf.runAll S A b ops = .ok b1 →
    runAll S A g b ops = .ok (result g b (inPlace ops) (ops.any fresh) b1) := by
  induction ops with
  | nil =>
    intro g b b1 h
    obtain rfl := Except.ok.inj h
    simp [runAll, result, inPlace]; rfl
  | cons op ops ih =>
    intro g b b1 h
    simp only [Buf.runAll] at h
    cases hr : Buf.runOp S A b op with
    | error e => rw [hr] at h; cases h
    | ok r =>
      rw [hr, Except.ok_bind'] at h
      simp only [runAll, runOp_eq g hr]
      cases g <;> cases hf : fresh op <;>
        simp [result, inPlace, hf, andThen_done, andThen_unwound, ih _ h]

theorem reverseAll_eq (ops : List SOp) : ∀ (g : Guard) {b b1 : Buf}, Buf.reverseAll S A b ops = .ok b1 →
    reverseAll S A g b ops = .ok (result g b (inPlace (ops.filter fun op => !idle op)) (ops.any fresh) b1) := by
  induction ops with
  | nil =>
    intro g b b1 h
    obtain rfl := Except.ok.inj h
    simp [reverseAll, result, inPlace]; rfl
  | cons op ops ih =>
    intro g b b1 h
    simp only [Buf.reverseAll] at h
    cases hr : Buf.reverseOp S A b op with
    | error e => rw [hr] at h; cases h
    | ok b2 =>
      rw [hr, Except.ok_bind'] at h
      obtain ⟨h1, h2⟩ := reverseOp_eq g hr
      simp only [reverseAll, h1]
      cases hi : idle op with
      | true =>
        obtain rfl := h2 hi
        have hf : fresh op = false := by cases op <;> simp_all [idle, fresh]
        have hfil : (op :: ops).filter (fun op => !idle op) = ops.filter fun op => !idle op := by simp [hi]
        rw [hfil]
        simp only [result, hf]
        simp only [Bool.not_true, Bool.and_false, Bool.false_eq_true, and_false, if_false, andThen_done, ih g h, List.any_cons, hf, Bool.false_or]
        rfl
      | false =>
        have hfil : (op :: ops).filter (fun op => !idle op) = op :: ops.filter fun op => !idle op := by simp [hi]
        rw [hfil]
        cases g <;> cases hf : fresh op <;>
          simp [result, inPlace, hf, andThen_done, andThen_unwound, ih _ h]

theorem runAny_eq (op : Op) (g : Guard) {b b1 : Buf} (h : Buf.runAny S A b op = .ok b1) :
    runAny S A g b op = .ok (result g b (inPlace (edits op)) ((edits op).any fresh) b1) := by
  cases op with
  | simple op =>
    simp only [Buf.runAny] at h
    cases hr : Buf.runOp S A b op with
    | error e => rw [hr] at h; cases h
    | ok r =>
      rw [hr, Except.ok_bind'] at h
      obtain rfl := Except.ok.inj h
      simp only [runAny, runOp_eq g hr]
      cases g <;> cases hf : fresh op <;> simp [result, inPlace, edits, hf, andThen_done, andThen_unwound] <;> rfl
  | group ops => exact runAll_eq ops g h

theorem any_fresh (ops : List SOp) : (ops.filter fun op => !idle op).any fresh = ops.any fresh := by
  induction ops with
  | nil => rfl
  | cons op ops ih =>
    have : idle op = true → fresh op = false := by cases op <;> simp [idle, fresh]
    cases hi : idle op <;> simp [hi, ih]
    simp [this hi]

theorem reverseAny_eq (op : Op) (g : Guard) {b b1 : Buf} (h : Buf.reverseAny S A b op = .ok b1) :
    reverseAny S A g b op = .ok (result g b (inPlace ((edits op).reverse.filter fun op => !idle op))
      (((edits op).reverse.filter fun op => !idle op).any fresh) b1) := by
  rw [any_fresh]
  cases op with
  | simple op =>
    simp only [Buf.reverseAny] at h
    obtain ⟨h1, h2⟩ := reverseOp_eq g h
    simp only [reverseAny, h1, edits]
    cases hi : idle op <;> cases hf : fresh op <;> simp [inPlace, hi, hf]
  | group ops => exact reverseAll_eq ops.reverse g h

theorem edit_eq (op : SOp) (g : Guard) {b : Buf} {r : Buf × SOp} (h : Buf.runOp S A b op = .ok r) :
    edit S A g b op = .ok (result g b (!fresh op) (fresh op) (r.1.store r.2)) := by
  simp only [edit, runOp_eq g h]
  cases g <;> cases hf : fresh op <;> simp [result, andThen_done, andThen_unwound] <;> rfl

theorem replace_eq (t : Text) (g : Guard) {b b1 : Buf} (h : Buf.replace S A b t = .ok b1) :
    replace S A g b t = .ok (if g = .exclusive then .unwound b else .done b1 (if renews b (.replace t) then .free else g)) := by
  simp only [Buf.replace] at h
  unfold replace reading renews
  split
  · rfl
  · rename_i hg
    cases hs : b.data.toStr with
    | error e => rw [hs] at h; cases h
    | ok u =>
      rw [hs, Except.ok_bind'] at h
      rw [Except.ok_bind']
      by_cases hu : t = u
      · rw [if_pos hu] at h
        rw [if_pos hu]
        obtain rfl := Except.ok.inj h
        simp [hu]; rfl
      · rw [if_neg hu] at h
        rw [if_neg hu]
        cases hr : Buf.runOp S A b (.replace u t) with
        | error e => rw [hr] at h; cases h
        | ok r =>
          rw [hr, Except.ok_bind'] at h
          obtain rfl := Except.ok.inj h
          rw [edit_eq _ g hr]
          simp [result, fresh, hu]

theorem undo_form (g : Guard) (b : Buf) :
    (undone b = none ∧ undo S A g b = .ok (.done { b with group := none, history := undoneHistory b } g) ∧
      Buf.undo S A b = .ok { b with group := none, history := undoneHistory b }) ∨
    ∃ op, undone b = some op ∧ undo S A g b = reverseAny S A g { b with group := none, history := undoneHistory b } op ∧
      Buf.undo S A b = Buf.reverseAny S A { b with group := none, history := undoneHistory b } op := by
  obtain ⟨d, c, ⟨prev, next, mark⟩, grp, cb, log⟩ := b
  cases grp with
  | none => cases prev with
    | nil => exact Or.inl ⟨rfl, rfl, rfl⟩
    | cons op ops => exact Or.inr ⟨op, rfl, rfl, rfl⟩
  | some grp => cases grp with
    | nil => cases prev with
      | nil => exact Or.inl ⟨rfl, rfl, rfl⟩
      | cons op ops => exact Or.inr ⟨op, rfl, rfl, rfl⟩
    | cons o os => exact Or.inr ⟨.group (o :: os), rfl, rfl, rfl⟩

/-- The whole of a call, in terms of the call without guards. -/
theorem exec_eq (g : Guard) {b b1 : Buf} (c : Cmd) (h : Buf.exec S A b c = .ok b1) :
    exec S A g b c = .ok (if blocked g b c then .unwound (left b c) else .done b1 (if renews b c then .free else g)) := by
  cases c with
  | insert s =>
    simp only [Buf.exec, Buf.insert] at h
    cases hr : Buf.runOp S A b (.insert s b.cursor.position) with
    | error e => rw [hr] at h; cases h
    | ok r =>
      rw [hr, Except.ok_bind'] at h
      obtain rfl := Except.ok.inj h
      simp only [exec, edit_eq _ g hr]
      cases g <;> simp [result, fresh, blocked, reads, writes, left, renews]
  | deleteRange p q =>
    simp only [Buf.exec, Buf.deleteRange] at h
    cases hr : Buf.runOp S A b (.delete none (Range.new p q)) with
    | error e => rw [hr] at h; cases h
    | ok r =>
      rw [hr, Except.ok_bind'] at h
      obtain rfl := Except.ok.inj h
      simp only [exec, edit_eq _ g hr]
      cases g <;> simp [result, fresh, blocked, reads, writes, left, renews]
  | delete =>
    simp only [Buf.exec, Buf.delete] at h
    cases hb : b.data.inBounds S ⟨b.cursor.position.line, b.cursor.position.offset + 1⟩ with
    | error e => rw [hb] at h; cases h
    | ok v =>
      rw [hb, Except.ok_bind', Buf.deleteRange] at h
      simp only [exec, delete, reading, hb, Except.ok_bind']
      generalize (if (!v) = true then (⟨b.cursor.position.line + 1, 0⟩ : Position) else ⟨b.cursor.position.line, b.cursor.position.offset + 1⟩) = q at h ⊢
      cases hr : Buf.runOp S A b (.delete none (Range.new b.cursor.position q)) with
      | error e => rw [hr] at h; cases h
      | ok r =>
        rw [hr, Except.ok_bind'] at h
        obtain rfl := Except.ok.inj h
        rw [edit_eq _ g hr]
        cases g <;> simp [result, fresh, blocked, reads, writes, left, renews] <;> rfl
  | replace t =>
    simp only [exec, replace_eq t g h]
    cases g <;> simp [blocked, reads, writes, left]
  | reload t =>
    simp only [Buf.exec, Buf.reloadWith] at h
    cases hr : Buf.replace S A b t with
    | error e => rw [hr] at h; cases h
    | ok r =>
      rw [hr, Except.ok_bind'] at h
      obtain rfl := Except.ok.inj h
      simp only [exec, reloadWith, replace_eq t g hr]
      cases g <;> simp [blocked, reads, writes, left, andThen_done, andThen_unwound] <;> rfl
  | undo =>
    simp only [Buf.exec] at h
    simp only [exec]
    rcases undo_form (S := S) (A := A) g b with ⟨h1, h2, h3⟩ | ⟨op, h1, h2, h3⟩
    · rw [h3] at h
      obtain rfl := Except.ok.inj h
      rw [h2]
      cases g <;> simp [blocked, reads, writes, renews, takenBack, h1, inPlace]
    · rw [h3] at h
      rw [h2, reverseAny_eq op g h]
      cases g <;> simp [result, blocked, reads, writes, left, renews, takenBack, h1]
  | redo =>
    simp only [Buf.exec, Buf.redo] at h
    simp only [exec, redo]
    obtain ⟨d, c, ⟨prev, next, mark⟩, grp, cb, log⟩ := b
    cases next with
    | nil =>
      obtain rfl := Except.ok.inj h
      cases g <;> simp [blocked, reads, writes, renews, madeAgain, inPlace, History.forth] <;> rfl
    | cons op ops =>
      simp only [History.forth] at h ⊢
      rw [runAny_eq op g h]
      cases g <;> simp [result, blocked, reads, writes, left, renews, madeAgain, History.forth]
  | move m =>
    simp only [Buf.exec] at h
    cases hr : Cursor.move S b.data b.cursor m with
    | error e => rw [hr] at h; cases h
    | ok c =>
      rw [hr, Except.ok_bind'] at h
      obtain rfl := Except.ok.inj h
      cases m <;> cases g <;> simp [exec, move, hr, reading, blocked, reads, looks, writes, left, renews] <;>
        (try split) <;> simp_all <;> rfl
  | _ =>
    obtain rfl := Except.ok.inj h
    cases g <;> simp [exec, blocked, reads, writes, renews]

theorem left_sane {b : Buf} (h : Sane b) (c : Cmd) : Sane (left b c) := by
  cases c with
  | undo =>
    have back : (∀ op ∈ b.history.back.2.previous, op.Ordered) ∧ ∀ op ∈ b.history.back.2.next, op.Ordered := by
      unfold History.back
      split
      · rename_i op ops hp
        refine ⟨fun o ho => h.previous o (by rw [hp]; simp [ho]), fun o ho => ?_⟩
        rcases List.mem_cons.mp ho with rfl | ho
        · exact h.previous _ (by rw [hp]; simp)
        · exact h.next o ho
      · exact ⟨h.previous, h.next⟩
    have hist : (∀ op ∈ (undoneHistory b).previous, op.Ordered) ∧ ∀ op ∈ (undoneHistory b).next, op.Ordered := by
      unfold undoneHistory
      split
      · exact ⟨h.previous, h.next⟩
      · exact back
    exact ⟨h.data, hist.1, hist.2, fun ops ho => by cases ho⟩
  | redo =>
    have hist : (∀ op ∈ b.history.forth.2.previous, op.Ordered) ∧ ∀ op ∈ b.history.forth.2.next, op.Ordered := by
      unfold History.forth
      split
      · rename_i op ops hp
        refine ⟨fun o ho => ?_, fun o ho => h.next o (by rw [hp]; simp [ho])⟩
        rcases List.mem_cons.mp ho with rfl | ho
        · exact h.next _ (by rw [hp]; simp)
        · exact h.previous o ho
      · exact ⟨h.previous, h.next⟩
    exact ⟨h.data, hist.1, hist.2, h.group⟩
  | _ => exact h

theorem session_sane (ss : List Step) : ∀ {g : Guard} {b : Buf}, Sane b → ∃ r, session S A g b ss = .ok r ∧ Sane r.1 := by
  induction ss with
  | nil => intro g b h; exact ⟨(b, g), rfl, h⟩
  | cons s ss ih =>
    intro g b h
    cases s with
    | hold g' => exact ih h
    | call c =>
      obtain ⟨b1, h1, h2⟩ := exec_safe (S := S) (A := A) h c
      simp only [session, exec_eq g c h1, Except.ok_bind']
      cases blocked g b c with
      | true => exact ih (left_sane h c)
      | false => exact ih h2

end Scribe.Guarded
