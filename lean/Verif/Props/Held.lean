import Verif.Spec.Held
import Verif.Spec.Doc
import Verif.Proofs.Safe
import Verif.Demo
/-!
# Property C105: memory kept for undo
-/
namespace Scribe.Props
open Spec Buf
variable {S : Segmenter} {A : Alloc}

theorem opsBytes_cons (op : Op) (ops : List Op) : opsBytes (op :: ops) = opBytes op + opsBytes ops := by simp [opsBytes]

theorem held_kept {b b' : Buf} (h : Kept b b') : held b' = held b := by unfold held; rw [h.history, h.group]

/-- Storing an operation. -/
theorem held_store {b b1 : Buf} (k : Kept b b1) (op : SOp) :
    held (b1.store op) + (if b.group.isNone then opsBytes b.history.next else 0) = held b + sopBytes op := by
  unfold store
  rw [k.group]
  cases hg : b.group with
  | none =>
    simp only [held, hg, k.group, k.history, History.add, opsBytes_cons, opBytes, Option.getD_none, Option.isNone_none, if_true]
    simp only [opsBytes, sopsBytes, List.map_nil, List.sum_nil]
    omega
  | some ops =>
    simp only [held, hg, k.history, Option.getD_some, sopsBytes, List.map_append, List.sum_append, List.map_cons, List.map_nil, List.sum_cons, List.sum_nil, Option.isNone_some]
    simp
    omega

/-- What an operation keeps once it has run on a buffer. -/
def ranBytes (S : Segmenter) (b : Buf) : SOp → Nat
  | .delete _ r => (match b.data.read S r with | .ok (some s) => blen s | _ => 0)
  | op => sopBytes op

theorem ran_bytes {b b' : Buf} {op op' : SOp} (h : runOp S A b op = .ok (b', op')) :
    sopBytes op' = ranBytes S b op := by
  cases op with
  | insert s p =>
    simp only [runOp] at h
    cases hg : b.data.insert S A s p with
    | error e => rw [hg] at h; cases h
    | ok g => rw [hg] at h; cases h; rfl
  | delete c r =>
    simp only [runOp] at h
    cases hr : b.data.read S r with
    | error e => rw [hr] at h; cases h
    | ok x =>
      rw [hr] at h
      simp only [Except.ok_bind'] at h
      cases hg : b.data.delete S r with
      | error e => rw [hg] at h; cases h
      | ok g => rw [hg] at h; cases h; cases x <;> simp [ranBytes, hr, sopBytes]
  | replace o n =>
    simp only [runOp] at h
    cases hg : replaceContent S A n b with
    | error e => rw [hg] at h; cases h
    | ok g => rw [hg] at h; cases h; rfl

theorem run_held {b b' : Buf} (hs : Sane b) {op : SOp} (ho : op.Ordered) (h : (runOp S A b op >>= fun r => (pure (r.1.store r.2) : R Buf)) = .ok b') :
    held b' + (if b.group.isNone then opsBytes b.history.next else 0) = held b + ranBytes S b op := by
  obtain ⟨b1, o1, h1, k1, -⟩ := runOp_safe (S := S) (A := A) hs.data op ho
  rw [h1] at h
  cases h
  rw [held_store k1, ran_bytes h1]

theorem replace_held {b b' : Buf} (hs : Sane b) {t c : Text} (ht : b.data.toStr = .ok t) (h : Buf.replace S A b c = .ok b') :
    held b' + (if c = t ∨ b.group.isSome then 0 else opsBytes b.history.next) = held b + if c = t then 0 else blen t + blen c := by
  unfold Buf.replace at h
  rw [ht, Except.ok_bind'] at h
  by_cases he : c = t
  · rw [if_pos he] at h; cases h
    rw [if_pos (Or.inl he), if_pos he]
  · rw [if_neg he] at h
    have := run_held hs (op := .replace t c) trivial h
    rw [if_neg he]
    simp only [ranBytes, sopBytes] at this
    cases hg : b.group with
    | none => rw [hg] at this; simpa [he] using this
    | some ops => rw [hg] at this; simpa using this

/-- Taking back the last operation of the history. -/
theorem pop_held {b b' : Buf} (hs : Sane b) (h : (match b.history.back.1 with
      | some op => reverseAny S A { b with history := b.history.back.2 } op
      | none => pure { b with history := b.history.back.2 }) = .ok b') : held b' = held b := by
  unfold History.back at h
  cases hp : b.history.previous with
  | nil => simp only [hp] at h; cases h; rfl
  | cons op ops =>
    simp only [hp] at h
    obtain ⟨b1, h1, k⟩ := reverseAny_safe (S := S) (A := A) (b := { b with history := { b.history with previous := ops, next := op :: b.history.next } }) hs.data op
    rw [h1] at h
    cases h
    rw [held_kept k]
    simp only [held, hp, opsBytes_cons]
    omega

theorem step_held {b b' : Buf} (hs : Sane b) (c : Cmd) (h : exec S A b c = .ok b') : held b' + givesUp b c = held b + adds S b c := by
  obtain ⟨t, ht⟩ := hs.toStr
  cases c with
  | insert s => exact run_held hs (op := .insert s b.cursor.position) trivial h
  | deleteRange p q => exact run_held hs (op := .delete none (Range.new p q)) (range_new_ok p q) h
  | delete =>
    obtain ⟨pre, post, hr⟩ := hs.data
    have hb := GapBuffer.inBounds_rep (S := S) hr ⟨b.cursor.position.line, b.cursor.position.offset + 1⟩
    simp only [exec, Buf.delete, hb, Except.ok_bind'] at h
    simp only [adds, hb]
    revert h
    generalize (locate _ _).isSome = x
    intro h
    cases x with
    | true => exact run_held hs (op := .delete none (Range.new _ _)) (range_new_ok _ _) h
    | false => exact run_held hs (op := .delete none (Range.new _ _)) (range_new_ok _ _) h
  | replace x =>
    simp only [adds, givesUp, ht]
    exact replace_held hs ht h
  | reload x =>
    simp only [adds, givesUp, ht]
    simp only [exec, reloadWith] at h
    cases hr : Buf.replace S A b x with
    | error e => rw [hr] at h; cases h
    | ok b1 =>
      rw [hr] at h
      cases h
      have hm : held b1.setMark = held b1 := rfl
      rw [hm]
      exact replace_held hs ht hr
  | undo =>
    simp only [adds, givesUp]
    simp only [exec, Buf.undo] at h
    cases hg : b.group with
    | none =>
      simp only [hg] at h
      have := pop_held (b := { b with group := none }) ⟨hs.data, hs.previous, hs.next, by intro ops ho; cases ho⟩ h
      rw [this]
      simp [held, hg, sopsBytes]
    | some ops =>
      simp only [hg] at h
      cases ops with
      | nil =>
        simp only [List.isEmpty_nil, if_true] at h
        have := pop_held (b := { b with group := none }) ⟨hs.data, hs.previous, hs.next, by intro ops ho; cases ho⟩ h
        rw [this]
        simp [held, hg, sopsBytes]
      | cons op ops =>
        simp only [List.isEmpty_cons, Bool.false_eq_true, if_false] at h
        obtain ⟨b1, h1, k⟩ := reverseAny_safe (S := S) (A := A) (b := { b with group := none }) hs.data (.group (op :: ops))
        rw [h1] at h
        cases h
        rw [held_kept k]
        simp [held, hg, sopsBytes]
  | redo =>
    simp only [adds, givesUp]
    simp only [exec, Buf.redo, History.forth] at h
    cases hn : b.history.next with
    | nil => simp only [hn] at h; cases h; rfl
    | cons op ops =>
      simp only [hn] at h
      obtain ⟨b1, h1, k⟩ := runAny_safe (S := S) (A := A) (b := { b with history := { b.history with next := ops, previous := op :: b.history.previous } }) hs.data op
        (hs.next op (by rw [hn]; simp))
      rw [h1] at h
      cases h
      rw [held_kept k]
      simp only [held, hn, opsBytes_cons]
      omega
  | startGroup =>
    cases h
    simp only [adds, givesUp, startGroup]
    cases hg : b.group <;> simp [held, hg]
  | endGroup =>
    cases h
    simp only [adds, givesUp, endGroup]
    cases hg : b.group with
    | none => simp
    | some ops =>
      cases ops with
      | nil => simp [held, hg]
      | cons op ops =>
        simp only [held, hg, Option.getD_some, List.isEmpty_cons, Bool.false_eq_true, if_false, History.add, opsBytes_cons, opBytes, Option.getD_none]
        simp [opsBytes, sopsBytes]
        omega
  | move m =>
    simp only [exec] at h
    cases hm : Cursor.move S b.data b.cursor m with
    | error e => rw [hm] at h; cases h
    | ok c => rw [hm] at h; cases h; rfl
  | setCursor p => cases h; rfl
  | setCallback v => cases h; rfl
  | saved => cases h; rfl

theorem ledger_held {b b' : Buf} (hs : Sane b) (cs : List Cmd) (h : execAll S A b cs = .ok b') :
    ∃ x y, ledger S A b cs = .ok (x, y) ∧ held b' + y = held b + x := by
  induction cs generalizing b with
  | nil => cases h; exact ⟨0, 0, rfl, rfl⟩
  | cons c cs ih =>
    obtain ⟨b1, h1, k1⟩ := exec_safe (S := S) (A := A) hs c
    simp only [execAll, h1, Except.ok_bind'] at h
    obtain ⟨x, y, e1, e2⟩ := ih k1 h
    have := step_held hs c h1
    exact ⟨adds S b c + x, givesUp b c + y, by simp only [ledger, h1, e1, Except.ok_bind'], by omega⟩

/-- **C105.** After every session, on any text and without conditions on the calls, the strings kept for undo and redo have exactly the bytes that the calls have added less
those they have given up. -/
theorem C105_ledger (S : Segmenter) (A : Alloc) (k : Nat) (t : Text) (cs : List Cmd) :
    (∃ b x y, execAll S A (Buf.new A k) cs = .ok b ∧ ledger S A (Buf.new A k) cs = .ok (x, y) ∧ held b + y = x) ∧
    ∃ b x y, execAll S A (Buf.fromContent A k t) cs = .ok b ∧ ledger S A (Buf.fromContent A k t) cs = .ok (x, y) ∧ held b + y = x := by
  constructor
  · obtain ⟨b, h, -⟩ := execAll_safe (S := S) (A := A) cs (sane_new k)
    obtain ⟨x, y, h1, h2⟩ := ledger_held (sane_new k) cs h
    exact ⟨b, x, y, h, h1, by rw [h2]; simp [held, Buf.new, History.new, opsBytes, sopsBytes]⟩
  · obtain ⟨b, h, -⟩ := execAll_safe (S := S) (A := A) cs (sane_fromContent k t)
    obtain ⟨x, y, h1, h2⟩ := ledger_held (sane_fromContent k t) cs h
    exact ⟨b, x, y, h, h1, by rw [h2]; simp [held, Buf.fromContent, History.new, History.setMark, opsBytes, sopsBytes]⟩

/-- The calls that edit. -/
def Edit' : Cmd → Prop
  | .insert _ | .delete | .deleteRange _ _ | .replace _ | .reload _ => True
  | _ => False

/-- Without edits nothing is added, so the memory never grows. Undo outside of groups, redo, movements and saves keep it as it is: undoing everything frees nothing. -/
theorem C105_still (S : Segmenter) (A : Alloc) (k : Nat) (t : Text) (cs : List Cmd) (c : Cmd) (b b' : Buf)
    (h : execAll S A (Buf.fromContent A k t) cs = .ok b) (hc : ¬ Edit' c) (h' : exec S A b c = .ok b') :
    held b' ≤ held b ∧ ((c = .undo → (b.group.getD []) = []) → (c = .endGroup → b.history.next = [] ∨ (b.group.getD []) = []) → held b' = held b) := by
  obtain ⟨b1, h1, hs⟩ := execAll_safe (S := S) (A := A) cs (sane_fromContent k t)
  rw [h1] at h
  cases h
  have := step_held hs c h'
  have ha : adds S b c = 0 := by cases c <;> first | rfl | exact (hc trivial).elim
  rw [ha] at this
  refine ⟨by omega, fun hu hg => ?_⟩
  have hz : givesUp b c = 0 := by
    cases c with
    | undo => simp [givesUp, hu rfl, sopsBytes]
    | endGroup =>
      rcases hg rfl with e | e <;> simp [givesUp, e, opsBytes]
    | _ => first | rfl | exact (hc trivial).elim
  omega

/-- Nothing to redo, and so nothing to give up. -/
theorem no_redo {b b' : Buf} (hs : Sane b) (hn : b.history.next = []) {c : Cmd} (hc : c ≠ .undo) (h : exec S A b c = .ok b') :
    givesUp b c = 0 ∧ b'.history.next = [] := by
  have hst : ∀ (b1 : Buf) op, b1.history.next = [] → (b1.store op).history.next = [] := by
    intro b1 op h1
    unfold store
    cases b1.group with
    | none => rfl
    | some ops => exact h1
  have hrun : ∀ (op : SOp), op.Ordered → ∀ b', (runOp S A b op >>= fun r => (pure (r.1.store r.2) : R Buf)) = .ok b' → b'.history.next = [] := by
    intro op ho b' h
    obtain ⟨b1, o1, h1, k1, -⟩ := runOp_safe (S := S) (A := A) hs.data op ho
    rw [h1] at h
    cases h
    exact hst _ _ (by rw [k1.history]; exact hn)
  have hrep : ∀ x b', Buf.replace S A b x = .ok b' → b'.history.next = [] := by
    intro x b' h
    obtain ⟨t, ht⟩ := hs.toStr
    unfold Buf.replace at h
    rw [ht, Except.ok_bind'] at h
    split at h
    · cases h; exact hn
    · exact hrun (.replace t x) trivial _ h
  obtain ⟨t, ht⟩ := hs.toStr
  have h0 : opsBytes b.history.next = 0 := by rw [hn]; rfl
  cases c with
  | undo => exact (hc rfl).elim
  | insert s => exact ⟨by simp [givesUp, h0], hrun (.insert s b.cursor.position) trivial _ h⟩
  | deleteRange p q => exact ⟨by simp [givesUp, h0], hrun (.delete none (Range.new p q)) (range_new_ok p q) _ h⟩
  | delete =>
    refine ⟨by simp [givesUp, h0], ?_⟩
    obtain ⟨pre, post, hr⟩ := hs.data
    simp only [exec, Buf.delete, GapBuffer.inBounds_rep (S := S) hr, Except.ok_bind'] at h
    exact hrun (.delete none (Range.new _ _)) (range_new_ok _ _) _ h
  | replace x => exact ⟨by simp [givesUp, h0, ht], hrep x _ h⟩
  | reload x =>
    refine ⟨by simp [givesUp, h0, ht], ?_⟩
    simp only [exec, reloadWith] at h
    cases hr : Buf.replace S A b x with
    | error e => rw [hr] at h; cases h
    | ok b1 =>
      rw [hr] at h
      cases h
      have := hrep x _ hr
      exact this
  | redo =>
    refine ⟨rfl, ?_⟩
    simp only [exec, Buf.redo, History.forth, hn] at h
    cases h; exact hn
  | startGroup =>
    cases h
    refine ⟨rfl, ?_⟩
    unfold startGroup
    cases b.group <;> exact hn
  | endGroup =>
    cases h
    refine ⟨by simp [givesUp, h0], ?_⟩
    unfold endGroup
    cases b.group with
    | none => exact hn
    | some ops => cases ops <;> first | exact hn | rfl
  | move m =>
    refine ⟨rfl, ?_⟩
    simp only [exec] at h
    cases hm : Cursor.move S b.data b.cursor m with
    | error e => rw [hm] at h; cases h
    | ok c => rw [hm] at h; cases h; exact hn
  | setCursor p => cases h; exact ⟨rfl, hn⟩
  | setCallback v => cases h; exact ⟨rfl, hn⟩
  | saved => cases h; exact ⟨rfl, hn⟩

theorem no_redo_all {b b' : Buf} (hs : Sane b) (hn : b.history.next = []) (cs : List Cmd) (hc : ∀ c ∈ cs, c ≠ .undo) (h : execAll S A b cs = .ok b') :
    b'.history.next = [] := by
  induction cs generalizing b with
  | nil => cases h; exact hn
  | cons c cs ih =>
    obtain ⟨b1, h1, k1⟩ := exec_safe (S := S) (A := A) hs c
    simp only [execAll, h1, Except.ok_bind'] at h
    exact ih k1 (no_redo hs hn (hc c (by simp)) h1).2 (fun c h => hc c (by simp [h])) h

/-- In a session without undo nothing is ever given up, however long it is and however often it saves or reloads. -/
theorem C105_without_undo (S : Segmenter) (A : Alloc) (k : Nat) (t : Text) (cs : List Cmd) (hc : ∀ c ∈ cs, c ≠ .undo) :
    ∃ b x, execAll S A (Buf.fromContent A k t) cs = .ok b ∧ ledger S A (Buf.fromContent A k t) cs = .ok (x, 0) ∧ held b = x := by
  have key : ∀ (cs : List Cmd) (b0 : Buf), Sane b0 → b0.history.next = [] → (∀ c ∈ cs, c ≠ .undo) → ∀ x y, ledger S A b0 cs = .ok (x, y) → y = 0 := by
    intro cs
    induction cs with
    | nil => intro b0 _ _ _ x y h; cases h; rfl
    | cons c cs ih =>
      intro b0 hs hn hc x y h
      obtain ⟨b1, h1, k1⟩ := exec_safe (S := S) (A := A) hs c
      obtain ⟨z, hn'⟩ := no_redo hs hn (hc c (by simp)) h1
      simp only [ledger, h1, Except.ok_bind'] at h
      cases hl : ledger S A b1 cs with
      | error e => rw [hl] at h; cases h
      | ok r =>
        rw [hl] at h
        cases h
        have := ih b1 k1 hn' (fun c h => hc c (by simp [h])) r.1 r.2 hl
        omega
  obtain ⟨-, b, x, y, h1, h2, h3⟩ := C105_ledger S A k t cs
  have := key cs _ (sane_fromContent k t) rfl hc x y h2
  subst this
  exact ⟨b, x, h1, h2, by omega⟩

/-- Reloading, which is documented to discard the history, keeps it, and both contents besides. -/
theorem C105_reload (S : Segmenter) (A : Alloc) (k : Nat) (t u c : Text) (cs : List Cmd) (hc : ∀ c ∈ cs, c ≠ .undo) (b b' : Buf)
    (h : execAll S A (Buf.fromContent A k t) cs = .ok b) (hu : b.data.toStr = .ok u) (hne : c ≠ u) (h' : exec S A b (.reload c) = .ok b') :
    held b' = held b + blen u + blen c := by
  obtain ⟨b2, h2, hs⟩ := execAll_safe (S := S) (A := A) cs (sane_fromContent k t)
  have hn := no_redo_all (sane_fromContent k t) rfl cs hc h
  rw [h2] at h
  cases h
  have := step_held hs _ h'
  simp only [adds, givesUp, hu, hne, false_or, if_false, hn, opsBytes, List.map_nil, List.sum_nil, ite_self] at this
  omega

/-- A deletion between two positions that exist keeps exactly what it takes from the text. -/
theorem C105_deleted (S : Segmenter) (A : Alloc) (b b' : Buf) (t : Text) (p q : Position) (hb : Holds S b.data t)
    (hp : exists? S.segs t p) (hq : exists? S.segs t q) (h : exec S A b (.deleteRange p q) = .ok b') :
    ∃ t', b'.data.toStr = .ok t' ∧ blen t' + adds S b (.deleteRange p q) = blen t := by
  have hr := range_new_ok p q
  obtain ⟨g', h1, h2, -⟩ := hb.delete (Range.new p q) hr
  have h3 := hb.read (Range.new p q) hr
  have ep : exists? S.segs t (Range.new p q).start ∧ exists? S.segs t (Range.new p q).stop := by
    unfold Range.new
    split <;> first | exact ⟨hp, hq⟩ | exact ⟨hq, hp⟩
  obtain ⟨a, e1⟩ := Option.isSome_iff_exists.mp ep.1
  obtain ⟨a', e2⟩ := Option.isSome_iff_exists.mp ep.2
  obtain ⟨d, e3, e4⟩ := locate_mono (a := a.1) (b := a.2) (a' := a'.1) (b' := a'.2) e1 e2 hr
  refine ⟨Spec.deleteRange S.segs t (Range.new p q).start (Range.new p q).stop, ?_, ?_⟩
  · simp only [exec, Buf.deleteRange, runOp, h3, h1, Except.ok_bind'] at h
    have hd : b'.data = g' := by
      cases h
      unfold store
      split <;> (unfold report; split <;> rfl)
    rw [hd]; exact h2
  · have ht : t = a.1.flatten ++ a.2.flatten := by
      rw [← List.flatten_append, ← (locate_eq_some.mp e1).1, S.join]
    simp only [adds, readBytes, h3, readRange, Spec.deleteRange, afterEnd, e1, e2]
    conv_rhs => rw [ht, e4]
    simp only [e3, List.drop_left, List.flatten_append, blen_append]
    omega

/-- A session with everything: a deletion that is kept, one past the end of the text that is not, an insertion lost at a position that does not exist but kept all the same,
a group that undo gives up, and a reload. The text has 3 bytes at the end; 12 are kept. -/
def heldSession : List Cmd := [.insert (Demo.s "é"), .deleteRange ⟨0, 2⟩ ⟨0, 3⟩, .undo, .redo, .startGroup, .insert (Demo.s "xyz"), .undo, .deleteRange ⟨0, 1⟩ ⟨0, 99⟩,
  .setCursor ⟨7, 7⟩, .insert (Demo.s "lost"), .saved, .reload (Demo.s "new")]

example : (execAll Demo.seg Demo.tight (Buf.fromContent Demo.tight 0 (Demo.s "abc")) heldSession >>= fun b => do return (held b, ← b.data.toStr)) = .ok (12, Demo.s "new") ∧
    ledger Demo.seg Demo.tight (Buf.fromContent Demo.tight 0 (Demo.s "abc")) heldSession = .ok (15, 3) := by
  constructor <;> decide +kernel

/-- Undo frees nothing; a group given up does. -/
example : (do
    let b ← execAll Demo.seg Demo.tight (Buf.fromContent Demo.tight 0 (Demo.s "abc")) [.insert (Demo.s "x"), .delete]
    let b' ← exec Demo.seg Demo.tight b .undo
    let c ← execAll Demo.seg Demo.tight b' [.startGroup, .insert (Demo.s "yz")]
    let c' ← exec Demo.seg Demo.tight c .undo
    return (held b, held b', held c, held c')) = .ok (2, 2, 4, 2) := by decide +kernel

/-- Ten reloads in turn of two contents keep each of them ten times. -/
example : (execAll Demo.seg Demo.tight (Buf.fromContent Demo.tight 0 (Demo.s "abc")) (List.replicate 5 [.reload (Demo.s "de"), .reload (Demo.s "abc")]).flatten >>= fun b =>
    .ok (held b)) = .ok 50 := by decide +kernel

/-- A deletion of two characters of two bytes each, given backwards. -/
example : Holds Demo.seg (Buf.fromContent Demo.tight 0 (Demo.s "aéèb")).data (Demo.s "aéèb") ∧ exists? Demo.seg.segs (Demo.s "aéèb") ⟨0, 3⟩ ∧
    exists? Demo.seg.segs (Demo.s "aéèb") ⟨0, 1⟩ ∧ adds Demo.seg (Buf.fromContent Demo.tight 0 (Demo.s "aéèb")) (.deleteRange ⟨0, 3⟩ ⟨0, 1⟩) = 4 :=
  ⟨GapBuffer.holds_new _ _, by decide +kernel, by decide +kernel, by decide +kernel⟩

end Scribe.Props
