import Verif.Proofs.GuardedCells
import Verif.Demo
/-!
# Property C110: calls while the caller holds a guard

`buffer.cursor.data` is public: a caller may keep a guard of the gap buffer (`borrow()` or `borrow_mut()`) while it calls the buffer, and may catch the panics that this leads to.
-/
namespace Scribe.Props
open Guarded
open Scribe.Buf (Cmd)
variable (S : Segmenter) (A : Alloc)

/-- **C110.** Every call under every guard. `blocked` says which calls panic: with a `Ref` those that change the gap buffer there is, with a `RefMut` also those that look at it;
never a `replace` because of a `Ref`. A call that panics leaves the buffer it found, except that `undo` and `redo` have moved in the history. A call that returns has done what it does without guards, and
the guard is still one of the buffer's gap buffer unless the call has made a new one. -/
theorem C110_exact (g : Guard) (b b1 : Buf) (c : Cmd) (h : Buf.exec S A b c = .ok b1) :
    exec S A g b c = .ok (if blocked g b c then .unwound (left b c) else .done b1 (if renews b c then .free else g)) := exec_eq g c h

/-- C110: the hypothesis always holds, whatever guards were held and whatever was caught before; nothing that a program does with guards makes the contents unreadable. -/
theorem C110_goes_on (g : Guard) (k : Nat) (t : Text) (ss : List Step) :
    (∃ r, session S A g (Buf.new A k) ss = .ok r ∧ (∃ u, r.1.data.toStr = .ok u) ∧ ∀ c, ∃ b1, Buf.exec S A r.1 c = .ok b1) ∧
    (∃ r, session S A g (Buf.fromContent A k t) ss = .ok r ∧ (∃ u, r.1.data.toStr = .ok u) ∧ ∀ c, ∃ b1, Buf.exec S A r.1 c = .ok b1) := by
  constructor
  · obtain ⟨r, h1, h2⟩ := session_sane (S := S) (A := A) ss (g := g) (sane_new k)
    exact ⟨r, h1, h2.toStr, fun c => (exec_safe (S := S) (A := A) h2 c).imp fun _ h => h.1⟩
  · obtain ⟨r, h1, h2⟩ := session_sane (S := S) (A := A) ss (g := g) (sane_fromContent k t)
    exact ⟨r, h1, h2.toStr, fun c => (exec_safe (S := S) (A := A) h2 c).imp fun _ h => h.1⟩

/-- C110: a call that panics has changed nothing of what can be seen, and no callback has been called. -/
theorem C110_unwound (g : Guard) (b b1 b' : Buf) (c : Cmd) (h : Buf.exec S A b c = .ok b1) (hu : exec S A g b c = .ok (.unwound b')) :
    g ≠ .free ∧ b'.data = b.data ∧ b'.cursor = b.cursor ∧ b'.log = b.log ∧ b'.callback = b.callback ∧ (c ≠ .undo → c ≠ .redo → b' = b) := by
  rw [exec_eq g c h] at hu
  cases hb : blocked g b c with
  | false => simp [hb] at hu
  | true =>
    simp only [hb, if_true, Except.ok.injEq, Out.unwound.injEq] at hu
    subst hu
    refine ⟨fun hg => by subst hg; simp [blocked] at hb, ?_⟩
    cases c <;> simp [left]

/-- C110: these are the guards of the cells in the model with pointers (C62): there the same calls panic, and the others do the same. -/
theorem C110_cells {ξ : Type} (f : Shared.Callback ξ) (w : Shared.World ξ) (b : Shared.Buf ξ) (cell : Shared.Cell) (a a1 : Buf) (c : Cmd)
    (h : Uses w b cell a) (hc : c ≠ .setCallback true) (ha : Buf.exec S A a c = .ok a1) :
    ((∃ a', exec S A (kind cell) a c = .ok (.unwound a')) → Shared.Buf.exec S A f w b c = .error .borrow) ∧
    (∀ a' g', exec S A (kind cell) a c = .ok (.done a' g') →
      ∃ b' w' cell', Shared.Buf.exec S A f w b c = .ok (b', w') ∧ Uses w' b' cell' a' ∧ kind cell' = g') := by
  have h1 := exec_result f h c hc ha
  rw [exec_eq (kind cell) c ha]
  unfold Result at h1
  cases hb : blocked (kind cell) a c with
  | true =>
    rw [hb, if_pos rfl] at h1
    exact ⟨fun _ => h1, fun a' g' he => by simp at he⟩
  | false =>
    rw [hb, if_neg (by simp)] at h1
    obtain ⟨b', w', c', e1, e2, e3⟩ := h1
    refine ⟨fun ⟨a', he⟩ => by simp at he, fun a' g' he => ?_⟩
    simp only [Bool.false_eq_true, if_false, Except.ok.injEq, Out.done.injEq] at he
    obtain ⟨rfl, rfl⟩ := he
    exact ⟨b', w', c', e1, e2, e3⟩

/-- C110: after an `undo` that panicked, the step counts as undone although it is not. If the last edit was an insertion, `redo` makes it a second time. -/
theorem C110_twice (g : Guard) (hg : g ≠ .free) (b b1 : Buf) (s : Text) (hn : b.group = none) (h : Buf.exec S A b (.insert s) = .ok b1) :
    (session S A .free b1 [.hold g, .call .undo, .hold .free, .call .redo]).map (fun r => r.1.data) =
    (Buf.exec S A b1 (.insert s)).map (fun r => r.data) := by
  simp only [Buf.exec, Buf.insert, Buf.runOp] at h
  cases hd : b.data.insert S A s b.cursor.position with
  | error e => rw [hd] at h; cases h
  | ok d =>
    rw [hd] at h
    obtain rfl := Except.ok.inj h
    have hrep : ∀ (x : Buf) p, (x.report p).group = x.group ∧ (x.report p).history = x.history ∧ (x.report p).data = x.data ∧ (x.report p).cursor = x.cursor := by
      intro x p; unfold Buf.report; split <;> exact ⟨rfl, rfl, rfl, rfl⟩
    generalize hx : ({ b with data := d } : Buf).report b.cursor.position = x
    obtain ⟨k1, k2, k3, k4⟩ := hrep ({ b with data := d } : Buf) b.cursor.position
    rw [hx] at k1 k2 k3 k4
    have hst : x.store (.insert s b.cursor.position) = { x with history := x.history.add (.simple (.insert s b.cursor.position)) } := by
      unfold Buf.store; rw [k1, hn]
    rw [hst]
    obtain ⟨q, hq⟩ := insertEnd_some (S := S) s b.cursor.position
    have hxg : x.group = none := by rw [k1]; exact hn
    obtain ⟨hist, hb, hf⟩ : ∃ hist : History, (x.history.add (.simple (.insert s b.cursor.position))).back =
        (some (.simple (.insert s b.cursor.position)), hist) ∧ hist.next = [.simple (.insert s b.cursor.position)] := ⟨_, rfl, rfl⟩
    have hu : exec S A g { x with history := x.history.add (.simple (.insert s b.cursor.position)) } .undo =
        .ok (.unwound { x with group := none, history := hist }) := by
      simp only [exec, undo, hxg, hb, reverseAny, reverseOp, hq, Except.ok_bind', writing, if_neg hg]
      rfl
    simp only [session, hu, Except.ok_bind']
    simp only [exec, redo, History.forth, hf, runAny, runOp, writing, if_true, Buf.exec, Buf.insert, Buf.runOp, k3, k4]
    cases hd2 : d.insert S A s b.cursor.position with
    | error e => rfl
    | ok d2 =>
      simp only [Except.ok_bind']
      have hst : ∀ (y : Buf) op, (y.store op).data = y.data := by intro y op; unfold Buf.store; split <;> rfl
      show Except.ok (Buf.report _ _).data = Except.ok (Buf.store _ _).data
      rw [hst, (hrep _ _).2.2.1, (hrep _ _).2.2.1]

/-! A buffer with `ab`, in which an `x` has been inserted. -/

private abbrev b0 : Buf := Buf.fromContent Demo.tight 0 (Demo.s "ab")
private abbrev x0 : Step := .call (.insert (Demo.s "x"))

/-- With a `Ref` held, `undo` panics; after the guard is dropped, `redo` inserts a second `x`. -/
example : ((session Demo.seg Demo.tight .free b0 [x0, .hold .shared, .call .undo, .hold .free, .call .redo]).bind fun r => r.1.data.toStr) =
    .ok (Demo.s "xxab") := by decide +kernel

/-- A `Ref` does not keep `replace` from replacing, and after it the buffer has no guards: the insertion works. -/
example : ((session Demo.seg Demo.tight .free b0 [.hold .shared, x0, .call (.replace (Demo.s "cd")), x0]).bind fun r => do
    return (← r.1.data.toStr, r.2)) = .ok (Demo.s "xcd", .free) := by decide +kernel

/-- A group of an insertion and a replacement: `undo` starts with the replacement and so is not stopped by the guard. With the two the other way round it is. -/
example : (exec Demo.seg Demo.tight .shared { b0 with group := some [.insert (Demo.s "x") ⟨0, 0⟩, .replace (Demo.s "xab") (Demo.s "c")] } .undo).map
      (fun o => match o with | .done _ g => some g | .unwound _ => none) = .ok (some .free) ∧
    (exec Demo.seg Demo.tight .shared { b0 with group := some [.replace (Demo.s "c") (Demo.s "ab"), .insert (Demo.s "x") ⟨0, 0⟩] } .undo).map
      (fun o => match o with | .done _ g => some g | .unwound _ => none) = .ok none := by decide +kernel

/-- The cells of C110_cells: one `Ref` guard, and `insert` panics in both models. -/
example : kind ⟨b0.data, 1, false⟩ = .shared ∧
    Uses (⟨[⟨b0.data, 1, false⟩], ()⟩ : Shared.World Unit) ⟨0, ⟨0, b0.cursor⟩, b0.history, none, none⟩ ⟨b0.data, 1, false⟩ b0 ∧
    blocked .shared b0 (.insert (Demo.s "x")) = true ∧ blocked .shared b0 (.move .up) = false ∧ blocked .exclusive b0 (.move .right) = true :=
  ⟨rfl, ⟨rfl, rfl, rfl, rfl, rfl, rfl, rfl⟩, rfl, rfl, rfl⟩

end Scribe.Props
