import Verif.Proofs.Direct
import Verif.Props.Counts
/-!
# C84: programs that use the public fields of buffers and cursors
-/
namespace Scribe.Shared
variable {ξ : Type}

/-- **C84.** No program panics that makes buffers and gap buffers, calls buffers, puts arbitrary cursors into buffers and edits gap buffers directly,
in any order; at the end every gap buffer is well formed, every buffer can be read, giving the contents of its own gap buffer, and every cursor can be moved. -/
theorem C84_no_panic (S : Segmenter) (A : Alloc) (xs : List (Act ξ)) (hx : ∀ x ∈ xs, x.Behaves) (e : ξ) :
    ∃ bs w, acts S A ⟨[], e⟩ [] xs = .ok (bs, w) ∧ Sound w ∧
      ∀ b ∈ bs, (∃ g t, w.cells[b.data]? = some (.free g) ∧ g.toStr = .ok t ∧ Buf.text w b = .ok (t, w)) ∧
      ∀ m f, ∃ b', Buf.exec S A f w b (.move m) = .ok (b', w) := by
  obtain ⟨bs, w, h1, h2⟩ := acts_ok (S := S) (A := A) xs (w := ⟨[], e⟩) (bs := [])
    ⟨⟨(fun c hc => by cases hc), (fun c hc => by cases hc)⟩, (fun b hb => by cases hb)⟩ hx
  refine ⟨bs, w, h1, h2.1, fun b hb => ?_⟩
  obtain ⟨f, _, h3⟩ := h2.2 b hb
  refine ⟨?_, fun m f => ?_⟩
  · obtain ⟨g, k1, pre, post, hr⟩ := h3.sound.cell h3.data
    refine ⟨g, _, k1, hr.toStr, ?_⟩
    have := withRead_pure k1 rfl (fun g => g.toStr) id
    rw [show (Cell.free g).value = g from rfl, hr.toStr] at this
    exact this
  obtain ⟨g, k1, pre, post, hr⟩ := h3.sound.cell h3.cursor
  obtain ⟨c', k2, _⟩ := Cursor.move_rep (S := S) hr b.cursor.at_ m
  exact ⟨{ b with cursor := { b.cursor with at_ := c' } }, by
    simp only [Buf.exec, move_eq k1 rfl]
    show ((Cursor.move S g _ _ >>= _) >>= _) = _
    rw [k2]; rfl⟩

/-- A program for the examples: buffer 0 gets the cursor of buffer 1, at a place that only exists in buffer 1. -/
def demoActs : List (Act Unit) :=
  [.load 0 (Demo.s "ab"), .load 0 (Demo.s "xyz\nw"), .assign 0 ⟨1, Cursor.new ⟨1, 1⟩⟩]

example : ∀ x ∈ demoActs, x.Behaves := by simp [demoActs, Act.Behaves]

/-- Inserting does nothing then, because the place does not exist in buffer 0; moving to (0, 3) succeeds, because it exists in buffer 1. After moving to
(0, 1), text is inserted in buffer 0. -/
example : (acts Demo.seg Demo.tight ⟨[], ()⟩ [] (demoActs ++ [.call 0 (fun _ w => .ok w) (.insert (Demo.s "Q")), .call 0 (fun _ w => .ok w) (.move (.to ⟨0, 3⟩))])
      >>= fun r => .ok (r.1.map fun b => b.cursor.at_.position, r.2.cells.map fun c => c.value.toStr.toOption)) =
      .ok ([⟨0, 3⟩, ⟨0, 0⟩], [some (Demo.s "ab"), some (Demo.s "xyz\nw")]) ∧
    (acts Demo.seg Demo.tight ⟨[], ()⟩ [] (demoActs ++ [.call 0 (fun _ w => .ok w) (.move (.to ⟨0, 1⟩)), .call 0 (fun _ w => .ok w) (.insert (Demo.s "Q"))])
      >>= fun r => .ok (r.1.map fun b => b.cursor.at_.position, r.2.cells.map fun c => c.value.toStr.toOption)) =
      .ok ([⟨0, 1⟩, ⟨0, 0⟩], [some (Demo.s "aQb"), some (Demo.s "xyz\nw")]) := by decide +kernel

/-- **C84.** Wherever the cursor of a buffer points, every call except a cursor movement does to the buffer's own contents what it would do if the cursor were the buffer's own
(with the same position): the same text, cursor position and history as for the buffer by value; no other gap buffer changes; the cursor keeps pointing
where it did or is the buffer's own afterwards. -/
theorem C84_edits_own_text (S : Segmenter) (A : Alloc) (f : Callback ξ) (eff : Position → List Cell → ξ → ξ) (hf : Looks f eff) (w : World ξ)
    (b : Buf ξ) (g : GapBuffer) (c : Scribe.Buf.Cmd) (a' : Scribe.Buf) (hi : Idle w) (hg : w.cells[b.data]? = some (.free g))
    (hcb : b.callback = none ∨ b.callback = some f) (hc : ∀ m, c ≠ .move m) (ha : Scribe.Buf.exec S A (b.byValue g) c = .ok a') :
    ∃ b' w', Buf.exec S A f w b c = .ok (b', w') ∧ w'.cells[b'.data]? = some (.free a'.data) ∧ b'.cursor.at_ = a'.cursor ∧
      b'.history = a'.history ∧ b'.group = a'.group ∧ (∀ q, q < w.cells.length → q ≠ b.data → w'.cells[q]? = w.cells[q]?) ∧
      (b'.cursor.data = b.cursor.data ∨ b'.cursor.data = b'.data) := by
  have hown : Own w f { b with cursor := ⟨b.data, b.cursor.at_⟩ } (b.byValue g) :=
    ⟨hi, hg, rfl, rfl, rfl, rfl, by rcases hcb with e | e <;> simp [Buf.byValue, e]⟩
  obtain ⟨b0', w', obs, h1, h2⟩ := exec_steps hf hown ha
  have ht : Twin b.cursor.data { b with cursor := ⟨b.data, b.cursor.at_⟩ } b := .other (b0 := { b with cursor := ⟨b.data, b.cursor.at_⟩ })
  obtain ⟨b', h3, h4⟩ := ht.exec hc h1
  obtain ⟨e1, e2, _, e4⟩ := h4.eqs
  refine ⟨b', w', h3, by rw [h4.data]; exact h2.own.cell, by rw [e4, h2.own.cursor], by rw [e1, h2.own.history], by rw [e2, h2.own.group],
    h2.frame, ?_⟩
  cases h4 with
  | same => exact .inr h2.own.shared
  | other => exact .inl rfl

/-- **C84.** Cursor movements only look at the gap buffer of the cursor, whichever it is: the cursor moves as it would in a buffer with that text, and nothing else
changes. -/
theorem C84_moves_cursor_text (S : Segmenter) (f : Callback ξ) (A : Alloc) (w : World ξ) (b : Buf ξ) (g : GapBuffer) (m : Cursor.Move)
    (hg : w.cells[b.cursor.data]? = some (.free g)) :
    Buf.exec S A f w b (.move m) = (Cursor.move S g b.cursor.at_ m >>= fun a => .ok ({ b with cursor := ⟨b.cursor.data, a⟩ }, w)) := by
  simp only [Buf.exec, move_eq hg rfl]
  show ((Cursor.move S g _ _ >>= _) >>= _) = _
  cases Cursor.move S g b.cursor.at_ m <;> rfl

/-- **C84.** Replacing the contents by others gives the buffer a cursor of its own again. -/
theorem C84_replace_reattaches (S : Segmenter) (A : Alloc) (f : Callback ξ) (w w' : World ξ) (b b' : Buf ξ) (old t : Text) (ho : Buf.text w b = .ok (old, w))
    (hne : t ≠ old) (h : Buf.exec S A f w b (.replace t) = .ok (b', w')) : b'.cursor.data = b'.data ∧ b'.data = w.cells.length := by
  simp only [Buf.exec, Buf.replace, ho, Except.ok_bind', if_neg hne, Buf.runOp] at h
  have key : ∀ b1 w1, Buf.replaceContent S A w t b = .ok (b1, w1) → b1.cursor.data = b1.data ∧ b1.data = w.cells.length := by
    intro b1 w1 h1
    unfold Buf.replaceContent at h1
    cases hk : w.get b.data with
    | error e => rw [hk] at h1; cases h1
    | ok k =>
      rw [hk] at h1
      simp only [Except.ok_bind', World.alloc] at h1
      have hmove : ∀ (w : World ξ) (c : Cur) p r, Cur.moveTo S w c p = .ok r → r.2.1.data = c.data := by
        intro w c p r hr
        unfold Cur.moveTo at hr
        generalize withRead w c.data _ = x at hr
        cases x with
        | error e => cases hr
        | ok x =>
          simp only [Except.ok_bind'] at hr
          split at hr <;> cases hr <;> rfl
      generalize hx : Cur.moveTo S _ (Cur.new w.cells.length ⟨0, 0⟩) b.cursor.at_.position = x at h1
      cases x with
      | error e => cases h1
      | ok x =>
        obtain ⟨ok, c1, w2⟩ := x
        have e1 : c1.data = w.cells.length := hmove _ _ _ _ hx
        simp only [Except.ok_bind'] at h1
        cases ok with
        | true =>
          simp only [Bool.not_true, Bool.false_eq_true, if_false, Except.ok_bind'] at h1
          generalize Buf.report _ _ _ = y at h1
          cases y with
          | error e => cases h1
          | ok y => cases h1; exact ⟨e1, rfl⟩
        | false =>
          simp only [Bool.not_false, if_true] at h1
          generalize hz : Cur.moveTo S w2 c1 ⟨b.cursor.at_.position.line, 0⟩ = z at h1
          cases z with
          | error e => cases h1
          | ok z =>
            obtain ⟨ok2, c2, w3⟩ := z
            have e2 : c2.data = c1.data := hmove _ _ _ _ hz
            simp only [Except.ok_bind'] at h1
            generalize Buf.report _ _ _ = y at h1
            cases y with
            | error e => cases h1
            | ok y => cases h1; exact ⟨e2.trans e1, rfl⟩
  cases h1 : Buf.replaceContent S A w t b with
  | error e => rw [h1] at h; cases h
  | ok r =>
    obtain ⟨b1, w1⟩ := r
    rw [h1] at h
    obtain ⟨k1, k2⟩ := key b1 w1 h1
    simp only [Except.ok_bind'] at h
    cases h
    unfold Buf.store
    cases b1.group with
    | none => exact ⟨k1, k2⟩
    | some ops => exact ⟨k1, k2⟩

example : (acts Demo.seg Demo.tight ⟨[], ()⟩ [] (demoActs ++ [.call 0 (fun _ w => .ok w) (.replace (Demo.s "new\nlines"))])
      >>= fun r => .ok (r.1.map fun b => (b.data, b.cursor))) = .ok [(2, ⟨2, ⟨⟨1, 1⟩, 1⟩⟩), (1, ⟨1, ⟨⟨0, 0⟩, 0⟩⟩)] := by decide +kernel

/-- **C84.** The number of undoable and redoable steps, the saved mark, the open group, and with them `modified()`, depend on the calls of the buffer alone:
assigning cursors, editing its gap buffer directly and calling other buffers change none of them. So a direct edit is not undoable, and a buffer with direct edits still
reports being unmodified. -/
theorem C84_history_spared (S : Segmenter) (A : Alloc) (xs : List (Act ξ)) (w w' : World ξ) (bs bs' : List (Buf ξ)) (i : Nat) (b : Buf ξ)
    (hx : ∀ x ∈ xs, x.Spares i) (hb : bs[i]? = some b) (h : acts S A w bs xs = .ok (bs', w')) :
    ∃ b', bs'[i]? = some b' ∧ b'.data = b.data ∧ b'.history = b.history ∧ b'.group = b.group := by
  have hlt : i < bs.length := (List.getElem?_eq_some_iff.mp hb).1
  induction xs generalizing w bs b with
  | nil => cases h; exact ⟨b, hb, rfl, rfl, rfl⟩
  | cons x xs ih =>
    simp only [acts] at h
    cases h1 : act S A w bs x with
    | error e => rw [h1] at h; cases h
    | ok r =>
      obtain ⟨bs1, w1⟩ := r
      rw [h1] at h
      have key : ∃ b1, bs1[i]? = some b1 ∧ b1.data = b.data ∧ b1.history = b.history ∧ b1.group = b.group := by
        have hs := hx x (by simp)
        cases x with
        | load k t => cases h1; exact ⟨b, by rw [List.getElem?_append_left hlt]; exact hb, rfl, rfl, rfl⟩
        | blank k => cases h1; exact ⟨b, by rw [List.getElem?_append_left hlt]; exact hb, rfl, rfl, rfl⟩
        | gap k t => cases h1; exact ⟨b, hb, rfl, rfl, rfl⟩
        | call j f c =>
          simp only [act] at h1
          cases hj : bs[j]? with
          | none => rw [hj] at h1; cases h1; exact ⟨b, hb, rfl, rfl, rfl⟩
          | some b2 =>
            rw [hj] at h1
            simp only at h1
            cases h2 : Buf.exec S A f w b2 c with
            | error e => rw [h2] at h1; cases h1
            | ok r =>
              rw [h2] at h1
              cases h1
              exact ⟨b, by rw [List.getElem?_set_ne hs]; exact hb, rfl, rfl, rfl⟩
        | assign j c =>
          simp only [act] at h1
          cases hj : bs[j]? with
          | none => rw [hj] at h1; cases h1; exact ⟨b, hb, rfl, rfl, rfl⟩
          | some b2 =>
            rw [hj] at h1
            simp only at h1
            cases h1
            split
            · by_cases e : j = i
              · subst e
                rw [hb] at hj; cases hj
                exact ⟨_, List.getElem?_set_self hlt, rfl, rfl, rfl⟩
              · exact ⟨b, by rw [List.getElem?_set_ne e]; exact hb, rfl, rfl, rfl⟩
            · exact ⟨b, hb, rfl, rfl, rfl⟩
        | insert p s q =>
          simp only [act] at h1
          split at h1
          · generalize withWrite w p _ = y at h1
            cases y with
            | error e => cases h1
            | ok y => cases h1; exact ⟨b, hb, rfl, rfl, rfl⟩
          · cases h1; exact ⟨b, hb, rfl, rfl, rfl⟩
        | delete p q r =>
          simp only [act] at h1
          split at h1
          · generalize withWrite w p _ = y at h1
            cases y with
            | error e => cases h1
            | ok y => cases h1; exact ⟨b, hb, rfl, rfl, rfl⟩
          · cases h1; exact ⟨b, hb, rfl, rfl, rfl⟩
      obtain ⟨b1, k1, k2, k3, k4⟩ := key
      obtain ⟨b', l1, l2, l3, l4⟩ := ih w1 bs1 b1 (fun y hy => hx y (by simp [hy])) k1 h (List.getElem?_eq_some_iff.mp k1).1
      exact ⟨b', l1, l2.trans k2, l3.trans k3, l4.trans k4⟩

/-- The contents differ from the file, `modified()` is false, and `undo` has nothing to undo. -/
example : (acts Demo.seg Demo.tight ⟨[], ()⟩ [] [.load 0 (Demo.s "ab"), .insert 0 (Demo.s "X") ⟨0, 1⟩, .call 0 (fun _ w => .ok w) .undo]
      >>= fun r => .ok (r.1.map fun b => b.history.atMark, r.2.cells.map fun c => c.value.toStr.toOption)) =
      .ok ([true], [some (Demo.s "aXb")]) := by decide +kernel

/-- Undoing an insertion after a direct edit removes whatever is at that place now: the "a" of the file is lost, and `modified()` is false. -/
example : (acts Demo.seg Demo.tight ⟨[], ()⟩ [] [.load 0 (Demo.s "abc"), .call 0 (fun _ w => .ok w) (.insert (Demo.s "XY")), .delete 0 ⟨0, 0⟩ ⟨0, 1⟩,
      .call 0 (fun _ w => .ok w) .undo] >>= fun r => .ok (r.1.map fun b => b.history.atMark, r.2.cells.map fun c => c.value.toStr.toOption)) =
      .ok ([true], [some (Demo.s "bc")]) := by decide +kernel

open Props (counts SameText) in
/-- **C84.** For every buffer of every such program and every call but a movement: the call does to the buffer what it would do to the buffer by value, and the bookkeeping
of C56 holds, wherever the cursor points and whatever was done to the gap buffer directly. -/
theorem C84_bookkeeping (S : Segmenter) (A : Alloc) (f : Callback ξ) (eff : Position → List Cell → ξ → ξ) (hf : Looks f eff) (xs : List (Act ξ))
    (hx : ∀ x ∈ xs, x.Behaves) (e : ξ) (bs : List (Buf ξ)) (w : World ξ) (hr : acts S A ⟨[], e⟩ [] xs = .ok (bs, w)) (b : Buf ξ) (hb : b ∈ bs)
    (hcb : b.callback = none ∨ b.callback = some f) (c : Scribe.Buf.Cmd) (hc : ∀ m, c ≠ .move m) :
    ∃ g t a' b' w', w.cells[b.data]? = some (.free g) ∧ g.toStr = .ok t ∧ Scribe.Buf.exec S A (b.byValue g) c = .ok a' ∧
      Buf.exec S A f w b c = .ok (b', w') ∧ w'.cells[b'.data]? = some (.free a'.data) ∧ b'.cursor.at_ = a'.cursor ∧
      counts (b'.byValue a'.data) = (counts (b.byValue g)).step (SameText t c) c := by
  obtain ⟨bs2, w2, h1, h2⟩ := acts_ok (S := S) (A := A) xs (w := ⟨[], e⟩) (bs := [])
    ⟨⟨(fun c hc => by cases hc), (fun c hc => by cases hc)⟩, (fun b hb => by cases hb)⟩ hx
  rw [hr] at h1; cases h1
  obtain ⟨f', _, h3⟩ := h2.2 b hb
  obtain ⟨g, k1, k2⟩ := h3.sound.cell h3.data
  have hs : Scribe.Sane (b.byValue g) := ⟨k2, h3.previous, h3.next, h3.group⟩
  obtain ⟨t, ht⟩ := hs.toStr
  obtain ⟨a', ha, _⟩ := exec_safe (S := S) (A := A) hs c
  obtain ⟨b', w', l1, l2, l3, l4, l5, _⟩ := C84_edits_own_text S A f eff hf w b g c a' h3.sound.1 k1 hcb hc ha
  refine ⟨g, t, a', b', w', k1, ht, ha, l1, l2, l3, ?_⟩
  rw [← (Props.C56_bookkeeping S A _ a' c t ht ha).1]
  unfold counts Buf.byValue
  simp only [l4, l5]

end Scribe.Shared
