import Verif.Proofs.Shared
import Verif.Spec.Direct
/-! Buffers whose cursor points to another gap buffer; programs that use public fields. -/
namespace Scribe.Shared
variable {ξ : Type} {S : Segmenter} {A : Alloc}

/-! ## The pointer of the cursor does not matter for edits -/

/-- `b` is `b0`, or is `b0` except that its cursor points to `q`. -/
inductive Twin (q : Ptr) (b0 : Buf ξ) : Buf ξ → Prop where
  | same : Twin q b0 b0
  | other : Twin q b0 { b0 with cursor := ⟨q, b0.cursor.at_⟩ }

theorem Twin.report {q : Ptr} {b b0 : Buf ξ} (h : Twin q b0 b) (w : World ξ) (p : Position) : Buf.report w b p = Buf.report w b0 p := by
  cases h <;> rfl

theorem Twin.data {q : Ptr} {b b0 : Buf ξ} (h : Twin q b0 b) : b.data = b0.data := by cases h <;> rfl

theorem Twin.replaceContent {q : Ptr} {b b0 b0' : Buf ξ} {w w' : World ξ} {t : Text} (h : Twin q b0 b)
    (h0 : Buf.replaceContent S A w t b0 = .ok (b0', w')) : Buf.replaceContent S A w t b = .ok (b0', w') := by
  cases h with
  | same => exact h0
  | other => exact h0

theorem Twin.runOp {q : Ptr} {b b0 b0' : Buf ξ} {w w' : World ξ} {op op' : SOp} (h : Twin q b0 b)
    (h0 : Buf.runOp S A w b0 op = .ok (b0', op', w')) : ∃ b', Buf.runOp S A w b op = .ok (b', op', w') ∧ Twin q b0' b' := by
  cases op with
  | insert s p =>
    simp only [Buf.runOp, h.data, h.report] at h0 ⊢
    generalize withWrite w b0.data _ = r at h0 ⊢
    cases r with
    | error e => cases h0
    | ok w1 =>
      simp only [Except.ok_bind'] at h0 ⊢
      cases hr : Buf.report w1 b0 p with
      | error e => rw [hr] at h0; cases h0
      | ok w2 => rw [hr] at h0; cases h0; exact ⟨b, rfl, h⟩
  | delete c x =>
    simp only [Buf.runOp, h.data, h.report] at h0 ⊢
    generalize withRead w b0.data _ = r at h0 ⊢
    cases r with
    | error e => cases h0
    | ok w1 =>
      simp only [Except.ok_bind'] at h0 ⊢
      generalize withWrite w1.2 b0.data _ = r at h0 ⊢
      cases r with
      | error e => cases h0
      | ok w2 =>
        simp only [Except.ok_bind'] at h0 ⊢
        cases hr : Buf.report w2 b0 x.start with
        | error e => rw [hr] at h0; cases h0
        | ok w3 => rw [hr] at h0; cases h0; exact ⟨b, rfl, h⟩
  | replace o n =>
    simp only [Buf.runOp] at h0 ⊢
    cases hr : Buf.replaceContent S A w n b0 with
    | error e => rw [hr] at h0; cases h0
    | ok r =>
      obtain ⟨b1, w1⟩ := r
      rw [hr] at h0; cases h0
      exact ⟨b1, by rw [h.replaceContent hr]; rfl, .same⟩

theorem Twin.reverseOp {q : Ptr} {b b0 b0' : Buf ξ} {w w' : World ξ} {op : SOp} (h : Twin q b0 b)
    (h0 : Buf.reverseOp S A w b0 op = .ok (b0', w')) : ∃ b', Buf.reverseOp S A w b op = .ok (b', w') ∧ Twin q b0' b' := by
  cases op with
  | insert s p =>
    simp only [Buf.reverseOp, h.data, h.report] at h0 ⊢
    cases he : Scribe.Buf.insertEnd S s p with
    | error e => rw [he] at h0; cases h0
    | ok x =>
      rw [he] at h0
      simp only [Except.ok_bind'] at h0 ⊢
      cases x with
      | none => cases h0; exact ⟨b, rfl, h⟩
      | some x =>
        simp only at h0 ⊢
        generalize withWrite w b0.data _ = r at h0 ⊢
        cases r with
        | error e => cases h0
        | ok w1 =>
          simp only [Except.ok_bind'] at h0 ⊢
          cases hr : Buf.report w1 b0 p with
          | error e => rw [hr] at h0; cases h0
          | ok w2 => rw [hr] at h0; cases h0; exact ⟨b, rfl, h⟩
  | delete c x =>
    simp only [Buf.reverseOp, h.data, h.report] at h0 ⊢
    cases c with
    | none => cases h0; exact ⟨b, rfl, h⟩
    | some c =>
      simp only at h0 ⊢
      generalize withWrite w b0.data _ = r at h0 ⊢
      cases r with
      | error e => cases h0
      | ok w1 =>
        simp only [Except.ok_bind'] at h0 ⊢
        cases hr : Buf.report w1 b0 x.start with
        | error e => rw [hr] at h0; cases h0
        | ok w2 => rw [hr] at h0; cases h0; exact ⟨b, rfl, h⟩
  | replace o n => exact ⟨b0', h.replaceContent h0, .same⟩

theorem Twin.runAll {q : Ptr} (ops : List SOp) {b b0 b0' : Buf ξ} {w w' : World ξ} (h : Twin q b0 b)
    (h0 : Buf.runAll S A w b0 ops = .ok (b0', w')) : ∃ b', Buf.runAll S A w b ops = .ok (b', w') ∧ Twin q b0' b' := by
  induction ops generalizing b b0 w with
  | nil => cases h0; exact ⟨b, rfl, h⟩
  | cons op ops ih =>
    simp only [Buf.runAll] at h0 ⊢
    cases hr : Buf.runOp S A w b0 op with
    | error e => rw [hr] at h0; cases h0
    | ok r =>
      obtain ⟨b1, o1, w1⟩ := r
      rw [hr] at h0
      obtain ⟨b2, h2, k2⟩ := h.runOp hr
      rw [h2]
      exact ih k2 h0

theorem Twin.reverseAll {q : Ptr} (ops : List SOp) {b b0 b0' : Buf ξ} {w w' : World ξ} (h : Twin q b0 b)
    (h0 : Buf.reverseAll S A w b0 ops = .ok (b0', w')) : ∃ b', Buf.reverseAll S A w b ops = .ok (b', w') ∧ Twin q b0' b' := by
  induction ops generalizing b b0 w with
  | nil => cases h0; exact ⟨b, rfl, h⟩
  | cons op ops ih =>
    simp only [Buf.reverseAll] at h0 ⊢
    cases hr : Buf.reverseOp S A w b0 op with
    | error e => rw [hr] at h0; cases h0
    | ok r =>
      obtain ⟨b1, w1⟩ := r
      rw [hr] at h0
      obtain ⟨b2, h2, k2⟩ := h.reverseOp hr
      rw [h2]
      exact ih k2 h0

theorem Twin.runAny {q : Ptr} {op : Op} {b b0 b0' : Buf ξ} {w w' : World ξ} (h : Twin q b0 b)
    (h0 : Buf.runAny S A w b0 op = .ok (b0', w')) : ∃ b', Buf.runAny S A w b op = .ok (b', w') ∧ Twin q b0' b' := by
  cases op with
  | simple op =>
    simp only [Buf.runAny] at h0 ⊢
    cases hr : Buf.runOp S A w b0 op with
    | error e => rw [hr] at h0; cases h0
    | ok r =>
      obtain ⟨b1, o1, w1⟩ := r
      rw [hr] at h0
      obtain ⟨b2, h2, k2⟩ := h.runOp hr
      cases h0
      rw [h2]
      exact ⟨b2, rfl, k2⟩
  | group ops => exact h.runAll ops h0

theorem Twin.reverseAny {q : Ptr} {op : Op} {b b0 b0' : Buf ξ} {w w' : World ξ} (h : Twin q b0 b)
    (h0 : Buf.reverseAny S A w b0 op = .ok (b0', w')) : ∃ b', Buf.reverseAny S A w b op = .ok (b', w') ∧ Twin q b0' b' := by
  cases op with
  | simple op => exact h.reverseOp h0
  | group ops => exact h.reverseAll ops.reverse h0

/-- Anything done to parts other than the cursor. -/
theorem Twin.group {q : Ptr} {b b0 : Buf ξ} (h : Twin q b0 b) (g : Option (List SOp)) : Twin q { b0 with group := g } { b with group := g } := by
  cases h with
  | same => exact .same
  | other => exact .other (b0 := { b0 with group := g })

theorem Twin.history {q : Ptr} {b b0 : Buf ξ} (h : Twin q b0 b) (g : History) : Twin q { b0 with history := g } { b with history := g } := by
  cases h with
  | same => exact .same
  | other => exact .other (b0 := { b0 with history := g })

theorem Twin.eqs {q : Ptr} {b b0 : Buf ξ} (h : Twin q b0 b) :
    b.history = b0.history ∧ b.group = b0.group ∧ b.callback = b0.callback ∧ b.cursor.at_ = b0.cursor.at_ := by
  cases h <;> exact ⟨rfl, rfl, rfl, rfl⟩

theorem Twin.store {q : Ptr} {b b0 : Buf ξ} (h : Twin q b0 b) (op : SOp) : Twin q (b0.store op) (b.store op) := by
  cases h with
  | same => exact .same
  | other =>
    obtain ⟨d, c, hi, g, k⟩ := b0
    cases g with
    | none => exact .other (b0 := ⟨d, c, hi.add (.simple op), none, k⟩)
    | some ops => exact .other (b0 := ⟨d, c, hi, some (ops ++ [op]), k⟩)

theorem Twin.runStore {q : Ptr} {op : SOp} {b b0 b0' : Buf ξ} {w w' : World ξ} (h : Twin q b0 b)
    (h0 : (Buf.runOp S A w b0 op >>= fun r => (.ok (r.1.store r.2.1, r.2.2) : R (Buf ξ × World ξ))) = .ok (b0', w')) :
    ∃ b', (Buf.runOp S A w b op >>= fun r => (.ok (r.1.store r.2.1, r.2.2) : R (Buf ξ × World ξ))) = .ok (b', w') ∧ Twin q b0' b' := by
  cases hr : Buf.runOp S A w b0 op with
  | error e => rw [hr] at h0; cases h0
  | ok r =>
    obtain ⟨b1, o1, w1⟩ := r
    rw [hr] at h0
    obtain ⟨b2, h2, k2⟩ := h.runOp hr
    cases h0
    rw [h2]
    exact ⟨_, rfl, k2.store o1⟩

theorem Twin.replace {q : Ptr} {t : Text} {b b0 b0' : Buf ξ} {w w' : World ξ} (h : Twin q b0 b)
    (h0 : Buf.replace S A w b0 t = .ok (b0', w')) : ∃ b', Buf.replace S A w b t = .ok (b', w') ∧ Twin q b0' b' := by
  unfold Buf.replace Buf.text at h0 ⊢
  rw [h.data]
  generalize withRead w b0.data _ = r at h0 ⊢
  cases r with
  | error e => cases h0
  | ok r =>
    simp only [Except.ok_bind'] at h0 ⊢
    split at h0
    · rename_i he; rw [if_pos he]; cases h0; exact ⟨b, rfl, h⟩
    · rename_i he
      rw [if_neg he]
      generalize withRead r.2 b0.data _ = r' at h0 ⊢
      cases r' with
      | error e => cases h0
      | ok r' =>
        simp only [Except.ok_bind'] at h0 ⊢
        exact h.runStore h0

theorem Twin.pop {q : Ptr} {b b0 b0' : Buf ξ} {w w' : World ξ} (h : Twin q b0 b)
    (h0 : (match b0.history.back.1 with
      | some op => Buf.reverseAny S A w { b0 with history := b0.history.back.2 } op
      | none => .ok ({ b0 with history := b0.history.back.2 }, w)) = .ok (b0', w')) :
    ∃ b', (match b.history.back.1 with
      | some op => Buf.reverseAny S A w { b with history := b.history.back.2 } op
      | none => .ok ({ b with history := b.history.back.2 }, w)) = .ok (b', w') ∧ Twin q b0' b' := by
  rw [h.eqs.1]
  cases hb : b0.history.back.1 with
  | none => rw [hb] at h0; cases h0; exact ⟨_, rfl, h.history _⟩
  | some op => rw [hb] at h0; exact (h.history _).reverseAny h0

theorem Twin.exec {q : Ptr} {f : Callback ξ} {c : Scribe.Buf.Cmd} (hc : ∀ m, c ≠ .move m) {b b0 b0' : Buf ξ} {w w' : World ξ} (h : Twin q b0 b)
    (h0 : Buf.exec S A f w b0 c = .ok (b0', w')) : ∃ b', Buf.exec S A f w b c = .ok (b', w') ∧ Twin q b0' b' := by
  obtain ⟨e1, e2, e3, e4⟩ := h.eqs
  cases c with
  | insert s => simp only [Buf.exec, Buf.insert, e4] at h0 ⊢; exact h.runStore h0
  | delete =>
    simp only [Buf.exec, Buf.delete, e4, h.data] at h0 ⊢
    generalize withRead w b0.data _ = r at h0 ⊢
    cases r with
    | error e => cases h0
    | ok r => simp only [Except.ok_bind'] at h0 ⊢; exact h.runStore h0
  | deleteRange x y => exact h.runStore h0
  | replace t => exact h.replace h0
  | undo =>
    simp only [Buf.exec, Buf.undo, e2] at h0 ⊢
    cases hg : b0.group with
    | none => rw [hg] at h0; exact (h.group none).pop h0
    | some ops =>
      rw [hg] at h0
      simp only at h0 ⊢
      split at h0
      · rename_i he; rw [if_pos he]; exact (h.group none).pop h0
      · rename_i he; rw [if_neg he]; exact (h.group none).reverseAny h0
  | redo =>
    simp only [Buf.exec, Buf.redo, e1] at h0 ⊢
    cases hb : b0.history.forth.1 with
    | none => rw [hb] at h0; cases h0; exact ⟨_, rfl, h.history _⟩
    | some op => rw [hb] at h0; exact (h.history _).runAny h0
  | startGroup =>
    cases h0
    refine ⟨_, rfl, ?_⟩
    unfold Buf.startGroup
    rw [e2]
    cases b0.group with
    | none => exact h.group _
    | some ops => exact h
  | endGroup =>
    cases h0
    refine ⟨_, rfl, ?_⟩
    unfold Buf.endGroup
    rw [e2]
    cases b0.group with
    | none => exact h
    | some ops =>
      simp only
      split
      · exact h.group _
      · rw [e1]; exact (h.group none).history _
  | move m => exact absurd rfl (hc m)
  | setCursor p =>
    cases h0
    refine ⟨_, rfl, ?_⟩
    cases h with
    | same => exact .same
    | other => exact .other (b0 := { b0 with cursor := { b0.cursor with at_ := { b0.cursor.at_ with position := p } } })
  | setCallback v =>
    cases h0
    refine ⟨_, rfl, ?_⟩
    cases h with
    | same => exact .same
    | other => exact .other (b0 := { b0 with callback := if v then some f else none })
  | saved =>
    cases h0
    exact ⟨_, rfl, by rw [e1]; exact h.history _⟩
  | reload t =>
    simp only [Buf.exec, Buf.reloadWith] at h0 ⊢
    cases hr : Buf.replace S A w b0 t with
    | error e => rw [hr] at h0; cases h0
    | ok r =>
      obtain ⟨b1, w1⟩ := r
      rw [hr] at h0
      obtain ⟨b2, h2, k2⟩ := h.replace hr
      cases h0
      rw [h2]
      exact ⟨_, rfl, by rw [k2.eqs.1]; exact k2.history _⟩

/-! ## Programs -/

/-- All buffers of a program are fine, each with its own callback. -/
def Inv (w : World ξ) (bs : List (Buf ξ)) : Prop := Sound w ∧ ∀ b ∈ bs, ∃ f, Behaves f ∧ Fine f w b

theorem Fine.grow {f : Callback ξ} {w w' : World ξ} {b : Buf ξ} (h : Fine f w b) (hs : Sound w') (hl : w.cells.length ≤ w'.cells.length) :
    Fine f w' b :=
  ⟨hs, Nat.lt_of_lt_of_le h.data hl, Nat.lt_of_lt_of_le h.cursor hl, h.callback, h.previous, h.next, h.group⟩

theorem Inv.grow {w w' : World ξ} {bs : List (Buf ξ)} (h : Inv w bs) (hs : Sound w') (hl : w.cells.length ≤ w'.cells.length) : Inv w' bs :=
  ⟨hs, fun b hb => by obtain ⟨f, h1, h2⟩ := h.2 b hb; exact ⟨f, h1, h2.grow hs hl⟩⟩

theorem Inv.push {w : World ξ} {bs : List (Buf ξ)} {b : Buf ξ} (h : Inv w bs) (hb : ∃ f, Behaves f ∧ Fine f w b) : Inv w (bs ++ [b]) :=
  ⟨h.1, fun x hx => by
    rcases List.mem_append.mp hx with hx | hx
    · exact h.2 x hx
    · simp at hx; subst hx; exact hb⟩

theorem Inv.set {w : World ξ} {bs : List (Buf ξ)} {b : Buf ξ} (h : Inv w bs) (i : Nat) (hb : ∃ f, Behaves f ∧ Fine f w b) : Inv w (bs.set i b) :=
  ⟨h.1, fun x hx => by
    rcases List.mem_or_eq_of_mem_set hx with hx | rfl
    · exact h.2 x hx
    · exact hb⟩

theorem behaves_idle : Behaves (fun _ w => .ok w : Callback ξ) := fun _ w hw => ⟨w, rfl, hw, Nat.le_refl _⟩

theorem write_sound {w : World ξ} {p : Ptr} (h : Sound w) (hp : p < w.cells.length) (F : GapBuffer → R GapBuffer)
    (hF : ∀ g pre post, Rep g pre post → ∃ g', F g = .ok g' ∧ ∃ pre post, Rep g' pre post) :
    ∃ w', withWrite w p (fun g w => F g >>= fun x => pure (x, w)) = .ok w' ∧ Sound w' ∧ w.cells.length ≤ w'.cells.length := by
  obtain ⟨g, h1, pre, post, h2⟩ := h.cell hp
  obtain ⟨g', h3, h4⟩ := hF g pre post h2
  exact ⟨w.set p (.free g'), by rw [withWrite_pure h1, h3]; rfl, h.set _ h4, by simp [World.set]⟩

/-- Calls other than setting a callback do not depend on the callback that would be set. -/
theorem exec_any {f f' : Callback ξ} {c : Scribe.Buf.Cmd} (hc : ∀ v, c ≠ .setCallback v) (w : World ξ) (b : Buf ξ) :
    Buf.exec S A f w b c = Buf.exec S A f' w b c := by
  cases c with
  | setCallback v => exact absurd rfl (hc v)
  | _ => rfl

theorem act_ok {w : World ξ} {bs : List (Buf ξ)} (h : Inv w bs) (x : Act ξ) (hx : x.Behaves) :
    ∃ bs' w', act S A w bs x = .ok (bs', w') ∧ Inv w' bs' := by
  cases x with
  | load k t =>
    have hf := fine_fromContent (A := A) (fun _ w => .ok w) h.1 k t
    exact ⟨_, _, rfl, (h.grow hf.sound (by simp [Buf.fromContent, World.alloc])).push ⟨_, behaves_idle, hf⟩⟩
  | blank k =>
    have hf := fine_new (A := A) (fun _ w => .ok w) h.1 k
    exact ⟨_, _, rfl, (h.grow hf.sound (by simp [Buf.new, World.alloc])).push ⟨_, behaves_idle, hf⟩⟩
  | gap k t => exact ⟨_, _, rfl, h.grow (h.1.alloc ⟨_, _, GapBuffer.new_rep k t⟩) (by simp [World.alloc])⟩
  | call i f c =>
    simp only [act]
    cases hb : bs[i]? with
    | none => exact ⟨_, _, rfl, h⟩
    | some b =>
      obtain ⟨g, h1, h2⟩ := h.2 b (List.mem_of_getElem? hb)
      have key : ∃ b' w', Buf.exec S A f w b c = .ok (b', w') ∧ (∃ g, Behaves g ∧ Fine g w' b') ∧ w.cells.length ≤ w'.cells.length := by
        by_cases hc : ∀ v, c ≠ .setCallback v
        · obtain ⟨b', w', k1, k2, k3⟩ := exec_ok (S := S) (A := A) h1 h2 c
          exact ⟨b', w', by rw [exec_any hc (f' := g)]; exact k1, ⟨g, h1, k2⟩, k3⟩
        · simp only [not_forall, not_not] at hc
          obtain ⟨v, rfl⟩ := hc
          refine ⟨_, _, rfl, ⟨f, hx, h2.sound, h2.data, h2.cursor, ?_, h2.previous, h2.next, h2.group⟩, Nat.le_refl _⟩
          intro g' hg
          cases v <;> simp at hg
          exact hg.symm
      obtain ⟨b', w', k1, k2, k3⟩ := key
      refine ⟨bs.set i b', w', by simp only [k1, Except.ok_bind'], ?_⟩
      obtain ⟨g', k4, k5⟩ := k2
      exact (h.grow k5.sound k3).set i ⟨g', k4, k5⟩
  | assign i c =>
    simp only [act]
    cases hb : bs[i]? with
    | none => exact ⟨_, _, rfl, h⟩
    | some b =>
      simp only
      split
      · rename_i hc
        obtain ⟨g, h1, h2⟩ := h.2 b (List.mem_of_getElem? hb)
        exact ⟨_, _, rfl, h.set i ⟨g, h1, h2.sound, h2.data, hc, h2.callback, h2.previous, h2.next, h2.group⟩⟩
      · exact ⟨_, _, rfl, h⟩
  | insert p s q =>
    simp only [act]
    split
    · rename_i hp
      obtain ⟨w', k1, k2, k3⟩ := write_sound h.1 hp (fun g => g.insert S A s q) (fun _ _ _ hr => insert_safe hr s q)
      exact ⟨bs, w', by simp only [k1, Except.ok_bind'], h.grow k2 k3⟩
    · exact ⟨_, _, rfl, h⟩
  | delete p q r =>
    simp only [act]
    split
    · rename_i hp
      obtain ⟨w', k1, k2, k3⟩ := write_sound h.1 hp (fun g => g.delete S (Range.new q r)) (fun _ _ _ hr => delete_safe hr _ (range_new_ok q r))
      exact ⟨bs, w', by simp only [k1, Except.ok_bind'], h.grow k2 k3⟩
    · exact ⟨_, _, rfl, h⟩

theorem acts_ok (xs : List (Act ξ)) {w : World ξ} {bs : List (Buf ξ)} (h : Inv w bs) (hx : ∀ x ∈ xs, x.Behaves) :
    ∃ bs' w', acts S A w bs xs = .ok (bs', w') ∧ Inv w' bs' := by
  induction xs generalizing w bs with
  | nil => exact ⟨bs, w, rfl, h⟩
  | cons x xs ih =>
    obtain ⟨bs1, w1, h1, k1⟩ := act_ok (S := S) (A := A) h x (hx x (by simp))
    obtain ⟨bs2, w2, h2, k2⟩ := ih k1 (fun y hy => hx y (by simp [hy]))
    exact ⟨bs2, w2, by simp only [acts, h1, Except.ok_bind', h2], k2⟩

end Scribe.Shared
