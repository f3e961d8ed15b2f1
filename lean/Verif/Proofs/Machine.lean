import Verif.Spec.Machine
import Verif.Proofs.Safe
/-! The machine computes what the model over natural numbers computes, or an allocation is refused. -/
namespace Scribe.Machine
open Spec GapBuffer
variable [Word] {M : Mode} {S : Segmenter} {A : Alloc}

/-- In every mode `x` is refused for lack of memory, and `B` fails; or `B` holds, in every mode `x` is `v`, and `P v`. -/
def Ag {α : Type} (B : Prop) (P : α → Prop) (x : Mode → R α) (v : α) : Prop :=
  (¬B ∧ ∀ M, x M = .error .capacity) ∨ (B ∧ (∀ M, x M = .ok v) ∧ P v)

theorem Ag.bind {α β : Type} {B C : Prop} {P : α → Prop} {Q : β → Prop} {x : Mode → R α} {v : α} {f : Mode → α → R β} {w : β}
    (h : Ag B P x v) (h' : P v → Ag C Q (fun M => f M v) w) : Ag (B ∧ C) Q (fun M => x M >>= f M) w := by
  rcases h with ⟨hb, h⟩ | ⟨hb, h, hp⟩
  · left; refine ⟨fun k => hb k.1, fun M => ?_⟩; dsimp only; rw [h]; rfl
  · rcases h' hp with ⟨hc, k⟩ | ⟨hc, k, hq⟩
    · left; refine ⟨fun k => hc k.2, fun M => ?_⟩; dsimp only; rw [h]; exact k M
    · right; refine ⟨⟨hb, hc⟩, fun M => ?_, hq⟩; dsimp only; rw [h]; exact k M

theorem Ag.iff {α : Type} {B C : Prop} {P : α → Prop} {x : Mode → R α} {v : α} (h : Ag B P x v) (e : C ↔ B) : Ag C P x v := by
  unfold Ag; rw [e]; exact h

theorem Ag.bindT {α β : Type} {B : Prop} {P : α → Prop} {Q : β → Prop} {x : Mode → R α} {v : α} {f : Mode → α → R β} {w : β}
    (h : Ag B P x v) (h' : P v → Ag True Q (fun M => f M v) w) : Ag B Q (fun M => x M >>= f M) w :=
  (h.bind h').iff ⟨fun h => ⟨h, trivial⟩, And.left⟩

theorem Ag.ret {α : Type} {P : α → Prop} {v : α} (h : P v) : Ag True P (fun _ => .ok v) v := Or.inr ⟨trivial, fun _ => rfl, h⟩

theorem Ag.mono {α : Type} {B : Prop} {P Q : α → Prop} {x : Mode → R α} {v : α} (h : Ag B P x v) (h' : P v → Q v) : Ag B Q x v :=
  h.imp id fun ⟨a, b, c⟩ => ⟨a, b, h' c⟩

theorem Ag.of_eq {α : Type} {P : α → Prop} {x : Mode → R α} {v : α} (h : ∀ M, x M = .ok v) (hp : P v) : Ag True P x v :=
  Or.inr ⟨trivial, h, hp⟩

/-- As `ret`, when `B` is known to hold. -/
theorem Ag.retB {α : Type} {B : Prop} {P : α → Prop} {v : α} (hb : B) (h : P v) : Ag B P (fun _ => .ok v) v := Or.inr ⟨hb, fun _ => rfl, h⟩

theorem Ag.of_eqB {α : Type} {B : Prop} {P : α → Prop} {x : Mode → R α} {v : α} (hb : B) (h : ∀ M, x M = .ok v) (hp : P v) : Ag B P x v :=
  Or.inr ⟨hb, h, hp⟩

theorem bind_ok {α β : Type} {x : R α} {f : α → R β} {w : β} (h : (x >>= f) = .ok w) : ∃ v, x = .ok v ∧ f v = .ok w := by
  cases x with
  | error e => cases h
  | ok v => exact ⟨v, rfl, h⟩

theorem half_eq : 2 ^ (Word.bits - 1) = maxLen + 1 :=
  (Nat.sub_add_cancel (Nat.one_le_two_pow)).symm

theorem W_half : W = 2 * 2 ^ (Word.bits - 1) := by
  have := Word.two_le
  rw [W, ← Nat.pow_succ', Nat.succ_eq_add_one, Nat.sub_add_cancel (by omega)]

theorem W_eq : W = 2 * maxLen + 2 := by rw [W_half, half_eq]; omega

theorem maxLen_pos : 0 < maxLen := by
  have h1 : (2 : Nat) ^ 1 ≤ 2 ^ (Word.bits - 1) := Nat.pow_le_pow_right (by decide) (by have := Word.two_le; omega)
  have h2 := half_eq
  omega

theorem addW_ok {a b : Nat} (h : a + b < W) : addW M a b = .ok (a + b) := if_pos h
theorem subW_ok {a b v : Nat} (h : subU a b = .ok v) : subW M a b = .ok v := by
  unfold subU at h; unfold subW
  split at h
  · next hl => rw [if_pos hl]; exact h
  · cases h

theorem length_flatten_ge (cs : List Text) (h : ∀ c ∈ cs, c ≠ []) : cs.length ≤ cs.flatten.length := by
  induction cs with
  | nil => simp
  | cons c cs ih =>
    have h1 := ih (fun x hx => h x (by simp [hx]))
    have h2 := List.length_pos_iff.mpr (h c (by simp))
    simp only [List.length_cons, List.flatten_cons, List.length_append]
    omega

theorem length_segs (t : Text) : (S.segs t).length ≤ t.length := by
  have := length_flatten_ge (S.segs t) (S.nonempty t)
  rwa [S.join] at this

theorem length_segs_blen (t : Text) : (S.segs t).length ≤ blen t := Nat.le_trans (length_segs t) (length_le_blen t)

/-- The vector has at most `isize::MAX` bytes. -/
def Fit (g : GapBuffer) : Prop := g.data.length ≤ maxLen

theorem scan_w (p : Position) (cs : List Text) (off : Nat) (q : Position) (h1 : q.line + cs.length < W) (h2 : q.offset + cs.length < W) :
    scan M p cs off q = .ok (GapBuffer.scan p cs off q) := by
  induction cs generalizing off q with
  | nil => rfl
  | cons c cs ih =>
    simp only [List.length_cons] at h1 h2
    unfold scan GapBuffer.scan
    split
    · rfl
    split
    · rw [addW_ok (by omega), Except.ok_bind', ih _ _ (by dsimp; omega) (by dsimp; omega)]
    · rw [addW_ok (by omega), Except.ok_bind', ih _ _ (by dsimp; omega) (by dsimp; omega)]

theorem scan_counts (p : Position) (cs : List Text) (off : Nat) (q q' : Position) (h : GapBuffer.scan p cs off q = .inr q') :
    q'.line ≤ q.line + cs.length ∧ q'.offset ≤ q.offset + cs.length := by
  induction cs generalizing off q with
  | nil => cases h; exact ⟨Nat.le_refl _, Nat.le_refl _⟩
  | cons c cs ih =>
    unfold GapBuffer.scan at h
    split at h
    · cases h
    split at h
    · have := ih _ _ h; dsimp at this; simp only [List.length_cons]; omega
    · have := ih _ _ h; dsimp at this; simp only [List.length_cons]; omega

theorem scan_found_le (p : Position) (cs : List Text) (off o : Nat) (q : Position) (h : GapBuffer.scan p cs off q = .inl o) :
    o ≤ off + blen cs.flatten := by
  induction cs generalizing off q with
  | nil => cases h
  | cons c cs ih =>
    unfold GapBuffer.scan at h
    simp only [List.flatten_cons, blen_append]
    split at h
    · cases h; omega
    split at h
    · have := ih _ _ h; omega
    · have := ih _ _ h; omega

theorem findOffset_w {g : GapBuffer} {pre post : Text} (h : Rep g pre post) (hf : Fit g) (p : Position) :
    findOffset M S g p = GapBuffer.findOffset S g p := by
  have hl := h.length
  have hs := h.start
  have e1 := length_segs_blen (S := S) pre
  have e2 := length_segs_blen (S := S) post
  unfold Fit at hf
  have hW := W_eq
  unfold findOffset GapBuffer.findOffset
  rw [h.first]
  simp only [Except.ok_bind', lossy_enc]
  rw [scan_w _ _ _ _ (by dsimp; omega) (by dsimp; omega), Except.ok_bind']
  cases hq : GapBuffer.scan p (S.segs pre) 0 ⟨0, 0⟩ with
  | inl off => rfl
  | inr q =>
    have hc := scan_counts _ _ _ _ _ hq
    dsimp at hc
    dsimp only
    rw [addW_ok (by omega)]
    simp only [Except.ok_bind']
    split
    · rfl
    rw [h.second]
    simp only [Except.ok_bind', lossy_enc]
    rw [scan_w _ _ _ _ (by omega) (by omega), Except.ok_bind']
    cases hq' : GapBuffer.scan p (S.segs post) 0 q with
    | inl off =>
      have := scan_found_le _ _ _ _ _ hq'
      rw [S.join] at this
      dsimp only
      rw [addW_ok (by omega)]
      rfl
    | inr q' => rfl

theorem setAt_ok {d d' : Bytes} {i : Nat} {x : UInt8} (h : setAt d i x = .ok d') : i < d.length ∧ d'.length = d.length := by
  unfold setAt at h
  split at h
  · next hi => cases h; exact ⟨hi, by simp⟩
  · cases h

theorem shiftLeft_w (offset gl n : Nat) (d d' : Bytes) (hf : d.length ≤ maxLen) (h : GapBuffer.shiftLeft offset gl n d = .ok d') :
    shiftLeft M offset gl n d = .ok d' := by
  have hW := W_eq
  induction n generalizing d with
  | zero => exact h
  | succ n ih =>
    unfold GapBuffer.shiftLeft at h
    obtain ⟨x, h1, h⟩ := bind_ok h
    obtain ⟨d1, h2, h⟩ := bind_ok h
    obtain ⟨d2, h3, h⟩ := bind_ok h
    have l1 := setAt_ok h2
    have l2 := setAt_ok h3
    unfold shiftLeft
    rw [h1, Except.ok_bind', addW_ok (by omega), Except.ok_bind', h2, Except.ok_bind', h3, Except.ok_bind']
    exact ih _ (by omega) h

theorem shiftRight_w (gl n i : Nat) (d d' : Bytes) (h : GapBuffer.shiftRight gl n i d = .ok d') :
    shiftRight M gl n i d = .ok d' := by
  induction n generalizing d i with
  | zero => exact h
  | succ n ih =>
    unfold GapBuffer.shiftRight at h
    obtain ⟨x, h1, h⟩ := bind_ok h
    obtain ⟨j, h2, h⟩ := bind_ok h
    obtain ⟨d1, h3, h⟩ := bind_ok h
    obtain ⟨d2, h4, h⟩ := bind_ok h
    unfold shiftRight
    rw [h1, Except.ok_bind', subW_ok h2, Except.ok_bind', h3, Except.ok_bind', h4, Except.ok_bind']
    exact ih _ _ h

theorem shiftLeft_len (offset gl n : Nat) {d d' : Bytes} (h : GapBuffer.shiftLeft offset gl n d = .ok d') : d'.length = d.length := by
  induction n generalizing d with
  | zero => cases h; rfl
  | succ n ih =>
    unfold GapBuffer.shiftLeft at h
    obtain ⟨x, _, h⟩ := bind_ok h
    obtain ⟨d1, h1, h⟩ := bind_ok h
    obtain ⟨d2, h2, h⟩ := bind_ok h
    exact (ih h).trans ((setAt_ok h2).2.trans (setAt_ok h1).2)

theorem shiftRight_len (gl n i : Nat) {d d' : Bytes} (h : GapBuffer.shiftRight gl n i d = .ok d') : d'.length = d.length := by
  induction n generalizing d i with
  | zero => cases h; rfl
  | succ n ih =>
    unfold GapBuffer.shiftRight at h
    obtain ⟨x, _, h⟩ := bind_ok h
    obtain ⟨j, _, h⟩ := bind_ok h
    obtain ⟨d1, h1, h⟩ := bind_ok h
    obtain ⟨d2, h2, h⟩ := bind_ok h
    exact (ih _ h).trans ((setAt_ok h2).2.trans (setAt_ok h1).2)

theorem moveGap_len {g g' : GapBuffer} {o : Nat} (h : GapBuffer.moveGap g o = .ok g') : g'.data.length = g.data.length := by
  unfold GapBuffer.moveGap at h
  split at h
  · cases h; rfl
  · split at h
    · obtain ⟨d, h1, h⟩ := bind_ok h
      cases h; exact shiftLeft_len _ _ _ h1
    · split at h
      · obtain ⟨d, h1, h⟩ := bind_ok h
        obtain ⟨gs, _, h⟩ := bind_ok h
        cases h; exact shiftRight_len _ _ _ h1
      · cases h; rfl

theorem moveGap_w {g g' : GapBuffer} {o : Nat} (hw : g.gapStart + g.gapLength ≤ g.data.length) (hf : Fit g)
    (h : GapBuffer.moveGap g o = .ok g') : moveGap M g o = .ok g' := by
  have hW := W_eq
  unfold Fit at hf
  unfold GapBuffer.moveGap at h
  unfold moveGap
  split at h
  · next hc => rw [if_pos hc]; exact h
  next hc =>
  rw [if_neg hc]
  split at h
  · next hc =>
    rw [if_pos hc]
    obtain ⟨d, h1, h⟩ := bind_ok h
    rw [shiftLeft_w _ _ _ _ _ hf h1, Except.ok_bind']; exact h
  next hc =>
  rw [if_neg hc]
  split at h
  · next hc =>
    rw [if_pos hc]
    obtain ⟨d, h1, h⟩ := bind_ok h
    obtain ⟨j, h2, h⟩ := bind_ok h
    rw [addW_ok (by omega)]
    simp only [Except.ok_bind']
    rw [shiftRight_w _ _ _ _ _ h1, Except.ok_bind', subW_ok h2, Except.ok_bind']; exact h
  · next hc => rw [if_neg hc]; exact h

theorem writeToGap_w (bs : Bytes) {g g' : GapBuffer} (hf : Fit g) (h : GapBuffer.writeToGap bs g = .ok g') :
    writeToGap M bs g = .ok g' ∧ Fit g' := by
  have hW := W_eq
  induction bs generalizing g with
  | nil => cases h; exact ⟨rfl, hf⟩
  | cons b bs ih =>
    unfold GapBuffer.writeToGap at h
    obtain ⟨d, h1, h⟩ := bind_ok h
    obtain ⟨j, h2, h⟩ := bind_ok h
    have l := setAt_ok h1
    unfold Fit at hf
    obtain ⟨e, k⟩ := ih (g := { g with data := d, gapStart := g.gapStart + 1, gapLength := j }) (by unfold Fit; dsimp; omega) h
    refine ⟨?_, k⟩
    unfold writeToGap
    rw [h1, Except.ok_bind', addW_ok (by omega), Except.ok_bind', subW_ok h2, Except.ok_bind']
    exact e

theorem _root_.Scribe.Rep.wf {g : GapBuffer} {pre post : Text} (h : Rep g pre post) : g.gapStart + g.gapLength ≤ g.data.length := by
  rw [h.length]; omega

theorem new_w (k : Nat) (t : Text) : Ag (Fit (GapBuffer.new A k t)) Fit (fun M => new M A k t) (GapBuffer.new A k t) := by
  have e : ∀ M, subW M (enc t ++ A.get k (enc t).length 0).length (enc t).length = .ok (A.get k (enc t).length 0).length := fun M =>
    subW_ok (by unfold subU; rw [if_pos (by simp)]; simp)
  by_cases hl : (enc t ++ A.get k (enc t).length 0).length ≤ maxLen
  · refine .of_eqB hl (fun M => ?_) hl
    unfold new alloc
    dsimp only
    rw [if_pos hl, Except.ok_bind', e]
    rfl
  · left
    refine ⟨hl, fun M => ?_⟩
    unfold new alloc
    dsimp only
    rw [if_neg hl]
    rfl

theorem grow_w {g g' : GapBuffer} {pre post : Text} (hr : Rep g pre post) (hf : Fit g) {n : Nat} (h : GapBuffer.grow A g n = .ok g') :
    Ag (Fit g') Fit (fun M => grow M A g n) g' := by
  unfold GapBuffer.grow at h
  unfold grow
  split at h
  · next hn =>
    simp only [if_pos hn]
    obtain ⟨g1, h1, h⟩ := bind_ok h
    dsimp only at h
    obtain ⟨gl, h2, h⟩ := bind_ok h
    cases h
    by_cases hl : (g1.data ++ A.get g1.clock g1.data.length n).length ≤ maxLen
    · refine .of_eqB hl (fun M => ?_) hl
      rw [moveGap_w hr.wf hf h1, Except.ok_bind']
      unfold alloc
      rw [if_pos hl, Except.ok_bind', subW_ok h2]
      rfl
    · left
      refine ⟨hl, fun M => ?_⟩
      dsimp only
      rw [moveGap_w hr.wf hf h1, Except.ok_bind']
      unfold alloc
      rw [if_neg hl]
      rfl
  · next hn =>
    simp only [if_neg hn]; cases h; exact .retB hf hf

theorem find_move {g : GapBuffer} {pre post : Text} (h : Rep g pre post) {p : Position} {o : Nat}
    (ho : GapBuffer.findOffset S g p = .ok (some o)) :
    ∃ g' x y, GapBuffer.moveGap g o = .ok g' ∧ Rep g' x y ∧ g'.data.length = g.data.length := by
  rw [findOffset_eq h] at ho
  cases hl : locate (S.segs pre ++ S.segs post) p with
  | none => rw [hl] at ho; cases ho
  | some ab =>
    rw [hl] at ho
    obtain ⟨a, b⟩ := ab
    obtain rfl : rawOff S g pre a = o := by simpa using ho
    obtain ⟨g', h1, h2⟩ := moveGap_to h (locate_eq_some.mp hl).1
    exact ⟨g', _, _, h1, h2.rep, h2.len⟩

theorem writeToGap_len (bs : Bytes) {g g' : GapBuffer} (h : GapBuffer.writeToGap bs g = .ok g') : g'.data.length = g.data.length := by
  induction bs generalizing g with
  | nil => cases h; rfl
  | cons b bs ih =>
    unfold GapBuffer.writeToGap at h
    obtain ⟨d, h1, h⟩ := bind_ok h
    obtain ⟨j, h2, h⟩ := bind_ok h
    exact (ih h).trans (setAt_ok h1).2

theorem grow_len {g g' : GapBuffer} {pre post : Text} (hr : Rep g pre post) {n : Nat} (h : GapBuffer.grow A g n = .ok g') :
    g.data.length ≤ g'.data.length := by
  obtain ⟨g2, k1, k3, k2⟩ := grow_rep (A := A) hr n
  obtain rfl : g' = g2 := Except.ok.inj (h.symm.trans k1)
  unfold GapBuffer.grow at h
  split at h
  · obtain ⟨g1, h1, h⟩ := bind_ok h
    dsimp only at h
    obtain ⟨gl, h2, h⟩ := bind_ok h
    have := moveGap_len h1
    cases h
    simp only [List.length_append]
    omega
  · cases h; exact Nat.le_refl _

theorem insert_len {g g' : GapBuffer} {pre post : Text} (hr : Rep g pre post) {s : Text} {p : Position}
    (h : GapBuffer.insert S A g s p = .ok g') : g.data.length ≤ g'.data.length := by
  unfold GapBuffer.insert at h
  obtain ⟨g1, h1, h⟩ := bind_ok h
  obtain ⟨o, h2, h⟩ := bind_ok h
  refine Nat.le_trans (grow_len hr h1) ?_
  cases o with
  | none => cases h; exact Nat.le_refl _
  | some o =>
    obtain ⟨g3, h3, h⟩ := bind_ok h
    rw [writeToGap_len _ h, moveGap_len h3]
    exact Nat.le_refl _

theorem delete_len {g g' : GapBuffer} {r : Range} (h : GapBuffer.delete S g r = .ok g') : g'.data.length = g.data.length := by
  unfold GapBuffer.delete at h
  obtain ⟨o, h1, h⟩ := bind_ok h
  cases o with
  | none => cases h; rfl
  | some so =>
    dsimp only at h
    obtain ⟨g1, m1, h⟩ := bind_ok h
    obtain ⟨o2, h2, h⟩ := bind_ok h
    have fin : ∀ v, (do let gl ← subU v g1.gapStart; return { g1 with gapLength := gl } : R GapBuffer) = .ok g' →
        g'.data.length = g.data.length := by
      intro v hv
      obtain ⟨gl, k1, k2⟩ := bind_ok hv
      cases k2; exact (moveGap_len m1 :)
    cases o2 with
    | some eo => exact fin _ h
    | none =>
      obtain ⟨o3, h3, h⟩ := bind_ok h
      cases o3 with
      | some eo => exact fin _ h
      | none => exact fin _ h

theorem insert_tail {g1 g' : GapBuffer} {bs : Bytes} {o : Option Nat}
    (h : (match o with
      | none => pure g1
      | some o => do
        let g ← GapBuffer.moveGap g1 o
        GapBuffer.writeToGap bs g : R GapBuffer) = .ok g') : g'.data.length = g1.data.length := by
  cases o with
  | none => cases h; rfl
  | some o =>
    obtain ⟨g3, h3, h⟩ := bind_ok h
    rw [writeToGap_len _ h, moveGap_len h3]

theorem insert_w {g g' : GapBuffer} {pre post : Text} (hr : Rep g pre post) (hf : Fit g) {s : Text} {p : Position}
    (h : GapBuffer.insert S A g s p = .ok g') : Ag (Fit g') Fit (fun M => insert M S A g s p) g' := by
  unfold GapBuffer.insert at h
  obtain ⟨g1, h1, h⟩ := bind_ok h
  obtain ⟨o, h2, h⟩ := bind_ok h
  obtain ⟨g2, k1, _, k2⟩ := grow_rep (A := A) hr (blen s)
  obtain rfl : g1 = g2 := Except.ok.inj (h1.symm.trans k1)
  obtain ⟨x, y, hr1⟩ : ∃ x y, Rep g1 x y := by
    rcases k2 with ⟨_, rfl⟩ | ⟨_, k⟩
    · exact ⟨_, _, hr⟩
    · exact ⟨_, _, k⟩
  unfold insert
  have hB : Fit g' ↔ Fit g1 := by
    unfold Fit; rw [insert_tail h]
  refine Ag.iff ((grow_w hr hf h1).bindT fun hf1 => ?_) hB
  simp only [findOffset_w hr1 hf1, h2, Except.ok_bind']
  cases o with
  | none => cases h; exact .ret hf1
  | some o =>
    obtain ⟨g3, x3, y3, m1, m2, m3⟩ := find_move hr1 h2
    dsimp only at h ⊢
    rw [m1, Except.ok_bind'] at h
    have hf3 : Fit g3 := by unfold Fit at *; omega
    refine .of_eq (fun M => ?_) (writeToGap_w (M := .checked) _ hf3 h).2
    rw [moveGap_w hr1.wf hf1 m1, Except.ok_bind']
    exact (writeToGap_w _ hf3 h).1

theorem read_w {g : GapBuffer} {pre post : Text} (hr : Rep g pre post) (hf : Fit g) (r : Range) :
    read M S g r = GapBuffer.read S g r := by
  have hW := W_eq
  have := hr.wf
  unfold Fit at hf
  unfold read GapBuffer.read
  simp only [findOffset_w (M := M) hr hf, addW_ok (M := M) (show g.gapStart + g.gapLength < W by omega), Except.ok_bind']
  rfl

theorem delete_w {g g' : GapBuffer} {pre post : Text} (hr : Rep g pre post) (hf : Fit g) {r : Range} (hl : r.stop.line + 1 < W)
    (h : GapBuffer.delete S g r = .ok g') : delete M S g r = .ok g' ∧ Fit g' := by
  unfold GapBuffer.delete at h
  obtain ⟨o, h1, h⟩ := bind_ok h
  unfold delete
  rw [findOffset_w hr hf, h1, Except.ok_bind']
  cases o with
  | none => cases h; exact ⟨rfl, hf⟩
  | some so =>
    obtain ⟨g1, x1, y1, m1, hr1, m3⟩ := find_move hr h1
    have hf1 : Fit g1 := by unfold Fit at *; omega
    dsimp only at h ⊢
    rw [m1, Except.ok_bind'] at h
    rw [moveGap_w hr.wf hf m1, Except.ok_bind', findOffset_w hr1 hf1]
    obtain ⟨o2, h2, h⟩ := bind_ok h
    rw [h2, Except.ok_bind']
    have fin : ∀ v, (do let gl ← subU v g1.gapStart; return { g1 with gapLength := gl } : R GapBuffer) = .ok g' →
        (do let gl ← subW M v g1.gapStart; return { g1 with gapLength := gl } : R GapBuffer) = .ok g' ∧ Fit g' := by
      intro v hv
      obtain ⟨gl, k1, k2⟩ := bind_ok hv
      rw [subW_ok k1, Except.ok_bind']
      cases k2; exact ⟨rfl, hf1⟩
    cases o2 with
    | some eo => exact fin _ h
    | none =>
      dsimp only at h ⊢
      rw [addW_ok hl, Except.ok_bind', findOffset_w hr1 hf1]
      obtain ⟨o3, h3, h⟩ := bind_ok h
      rw [h3, Except.ok_bind']
      cases o3 with
      | some eo => exact fin _ h
      | none => exact fin _ h

theorem inBounds_w {g : GapBuffer} {pre post : Text} (hr : Rep g pre post) (hf : Fit g) (p : Position) :
    inBounds M S g p = GapBuffer.inBounds S g p := by
  unfold inBounds GapBuffer.inBounds
  rw [findOffset_w hr hf]

theorem toStr_w {g : GapBuffer} {pre post : Text} (hr : Rep g pre post) (hf : Fit g) : toStr M g = GapBuffer.toStr g := by
  have hW := W_eq
  have := hr.wf
  unfold Fit at hf
  unfold toStr GapBuffer.toStr
  rw [addW_ok (by omega)]
  rfl

/-- A call whose end line is not the greatest `usize`. -/
def CallOk : Call → Prop
  | .delete p q => p.line + 1 < W ∧ q.line + 1 < W
  | _ => True

theorem range_stop (p q : Position) : (Range.new p q).stop = p ∨ (Range.new p q).stop = q := by
  unfold Range.new; split <;> simp

theorem call_w {g g' : GapBuffer} {pre post : Text} (hr : Rep g pre post) (hf : Fit g) (c : Call) (hc : CallOk c) {o : Obs}
    (h : GapBuffer.call S A g c = .ok (o, g')) : Ag (Fit g') (fun x => Fit x.2) (fun M => call M S A g c) (o, g') := by
  cases c with
  | insert s p =>
    simp only [GapBuffer.call] at h
    obtain ⟨g1, h1, h⟩ := bind_ok h
    cases h
    simp only [call]
    exact (insert_w hr hf h1).bindT fun hf1 => .ret hf1
  | delete p q =>
    simp only [GapBuffer.call] at h
    obtain ⟨g1, h1, h⟩ := bind_ok h
    cases h
    simp only [call]
    have k := fun M => delete_w (M := M) hr hf (by rcases range_stop p q with e | e <;> rw [e]; exacts [hc.1, hc.2]) h1
    exact .of_eqB (k .checked).2 (fun M => by rw [(k M).1]; rfl) (k .checked).2
  | read p q =>
    simp only [GapBuffer.call] at h
    obtain ⟨g1, h1, h⟩ := bind_ok h
    cases h
    simp only [call]
    exact .of_eqB hf (fun M => by rw [read_w hr hf, h1]; rfl) hf
  | inBounds p =>
    simp only [GapBuffer.call] at h
    obtain ⟨g1, h1, h⟩ := bind_ok h
    cases h
    simp only [call]
    exact .of_eqB hf (fun M => by rw [inBounds_w hr hf, h1]; rfl) hf
  | toStr =>
    simp only [GapBuffer.call] at h
    obtain ⟨g1, h1, h⟩ := bind_ok h
    cases h
    simp only [call]
    exact .of_eqB hf (fun M => by rw [toStr_w hr hf, h1]; rfl) hf

theorem call_len {g g' : GapBuffer} {pre post : Text} (hr : Rep g pre post) (c : Call) {o : Obs} (h : GapBuffer.call S A g c = .ok (o, g')) :
    g.data.length ≤ g'.data.length := by
  cases c <;> simp only [GapBuffer.call] at h <;> obtain ⟨g1, h1, h⟩ := bind_ok h <;> cases h
  · exact insert_len hr h1
  · exact Nat.le_of_eq (delete_len h1).symm
  · exact Nat.le_refl _
  · exact Nat.le_refl _
  · exact Nat.le_refl _

theorem run_len (cs : List Call) {g g' : GapBuffer} {pre post : Text} (hr : Rep g pre post) {os : List Obs}
    (h : GapBuffer.run S A g cs = .ok (os, g')) : g.data.length ≤ g'.data.length := by
  induction cs generalizing g os pre post with
  | nil => cases h; exact Nat.le_refl _
  | cons c cs ih =>
    unfold GapBuffer.run at h
    obtain ⟨⟨o, g1⟩, h1, h⟩ := bind_ok h
    obtain ⟨⟨os', g2⟩, h2, h⟩ := bind_ok h
    cases h
    obtain ⟨o', g1', x, y, k1, k2, _⟩ := GapBuffer.call_rep (S := S) (A := A) hr c
    obtain ⟨rfl, rfl⟩ := Prod.mk.inj (Except.ok.inj (h1.symm.trans k1))
    exact Nat.le_trans (call_len hr c h1) (ih k2 h2)

theorem run_w (cs : List Call) {g g' : GapBuffer} {pre post : Text} (hr : Rep g pre post) (hf : Fit g) (hc : ∀ c ∈ cs, CallOk c)
    {os : List Obs} (h : GapBuffer.run S A g cs = .ok (os, g')) : Ag (Fit g') (fun x => Fit x.2) (fun M => run M S A g cs) (os, g') := by
  induction cs generalizing g os pre post with
  | nil => cases h; exact .retB hf hf
  | cons c cs ih =>
    unfold GapBuffer.run at h
    obtain ⟨⟨o, g1⟩, h1, h⟩ := bind_ok h
    obtain ⟨⟨os', g2⟩, h2, h⟩ := bind_ok h
    cases h
    obtain ⟨o', g1', x, y, k1, k2, _⟩ := GapBuffer.call_rep (S := S) (A := A) hr c
    obtain ⟨rfl, rfl⟩ := Prod.mk.inj (Except.ok.inj (h1.symm.trans k1))
    unfold run
    have hB : Fit g' ↔ Fit g1 ∧ Fit g' :=
      ⟨fun k => ⟨Nat.le_trans (run_len cs k2 h2) k, k⟩, And.right⟩
    refine Ag.iff ((call_w hr hf c (hc c (by simp)) h1).bind fun hf1 => ?_) hB
    exact (ih k2 hf1 (fun c hc' => hc c (by simp [hc'])) h2).bindT fun hf2 => .ret hf2

/-! ## Cursor -/

/-- Both coordinates are at most `isize::MAX`. -/
def Small (p : Position) : Prop := p.line ≤ maxLen ∧ p.offset ≤ maxLen

theorem moveTo_w {g : GapBuffer} {pre post : Text} (hr : Rep g pre post) (hf : Fit g) (c : Cursor) (p : Position) :
    moveTo M S g c p = Cursor.moveTo S g c p := by
  unfold moveTo Cursor.moveTo
  rw [inBounds_w hr hf]

theorem moveToLine_w {g : GapBuffer} {pre post : Text} (hr : Rep g pre post) (hf : Fit g) (c : Cursor) (n : Nat) :
    moveToLine M S g c n = Cursor.moveToLine S g c n := by
  unfold moveToLine Cursor.moveToLine
  simp only [moveTo_w hr hf, toStr_w hr hf]

theorem lastLine_w (cs : List Text) (l n : Nat) (h1 : l + cs.length < W) (h2 : n + cs.length < W) :
    lastLine M cs (l, n) = .ok (Cursor.lastLine cs (l, n)) := by
  induction cs generalizing l n with
  | nil => rfl
  | cons c cs ih =>
    simp only [List.length_cons] at h1 h2
    unfold lastLine Cursor.lastLine
    split
    · rw [addW_ok (by omega), Except.ok_bind', ih _ _ (by omega) (by omega)]
    · rw [addW_ok (by omega), Except.ok_bind', ih _ _ (by omega) (by omega)]

theorem move_w {g : GapBuffer} {pre post : Text} (hr : Rep g pre post) (hf : Fit g) (c : Cursor) (hc : Small c.position) (m : Cursor.Move) :
    move M S g c m = Cursor.move S g c m := by
  have hW := W_eq
  obtain ⟨hc1, hc2⟩ := hc
  cases m with
  | «to» p => simp only [move, Cursor.move, moveTo_w hr hf]
  | up =>
    simp only [move, Cursor.move, Cursor.moveUp]
    split
    · rfl
    · next h =>
      have e : subU c.position.line 1 = .ok (c.position.line - 1) := if_pos (by omega)
      simp only [e, subW_ok (M := M) e, Except.ok_bind', moveToLine_w hr hf]
  | down =>
    simp only [move, Cursor.move, Cursor.moveDown]
    rw [addW_ok (by omega), Except.ok_bind', moveToLine_w hr hf]
  | left =>
    simp only [move, Cursor.move, Cursor.moveLeft]
    split
    · rfl
    · next h =>
      have e : subU c.position.offset 1 = .ok (c.position.offset - 1) := if_pos (by omega)
      simp only [e, subW_ok (M := M) e, Except.ok_bind', moveTo_w hr hf]
  | right =>
    simp only [move, Cursor.move, Cursor.moveRight]
    rw [addW_ok (by omega), Except.ok_bind', moveTo_w hr hf]
  | startOfLine => simp only [move, Cursor.move, Cursor.moveToStartOfLine, moveTo_w hr hf]
  | endOfLine =>
    simp only [move, Cursor.move, Cursor.moveToEndOfLine, moveTo_w hr hf, toStr_w hr hf]
    rfl
  | lastLine =>
    have hl := hr.length
    have hs := hr.start
    have e1 := length_segs_blen (S := S) (pre ++ post)
    rw [blen_append] at e1
    unfold Fit at hf
    simp only [move, Cursor.move, Cursor.moveToLastLine, moveTo_w hr hf, toStr_w hr hf, hr.toStr, Except.ok_bind']
    rw [lastLine_w _ _ _ (by omega) (by omega)]
    rfl
  | firstLine => simp only [move, Cursor.move, Cursor.moveToFirstLine, moveTo_w hr hf, toStr_w hr hf]

theorem endPos_counts (cs : List Text) : (endPos cs).line ≤ cs.length ∧ (endPos cs).offset ≤ cs.length := by
  rw [endPos_eq_foldl]
  suffices ∀ q : Position, (cs.foldl step q).line ≤ q.line + cs.length ∧ (cs.foldl step q).offset ≤ q.offset + cs.length by
    have := this ⟨0, 0⟩; simpa using this
  induction cs with
  | nil => intro q; simp
  | cons c cs ih =>
    intro q
    have := ih (step q c)
    have hs : (step q c).line ≤ q.line + 1 ∧ (step q c).offset ≤ q.offset + 1 := by
      unfold step; split <;> simp
    simp only [List.foldl_cons, List.length_cons]
    omega

theorem bounds_small {g : GapBuffer} {pre post : Text} (hr : Rep g pre post) (hf : Fit g) {p : Position}
    (h : (locate (S.segs pre ++ S.segs post) p).isSome = true) : Small p := by
  obtain ⟨⟨a, b⟩, h⟩ := Option.isSome_iff_exists.mp h
  obtain ⟨h1, rfl⟩ := locate_eq_some.mp h
  have hl := hr.length
  have hs := hr.start
  have e1 := length_segs_blen (S := S) pre
  have e2 := length_segs_blen (S := S) post
  have e3 := congrArg List.length h1
  simp only [List.length_append] at e3
  have := endPos_counts a
  unfold Fit at hf
  constructor <;> omega

/-! ## Buffer -/

/-- The stored positions are small enough. -/
def SOp.Ok : SOp → Prop
  | .insert s p => Small p ∧ blen s ≤ maxLen
  | .delete _ r => r.stop.line ≤ maxLen + 1
  | .replace _ _ => True

def Op.Ok : Op → Prop
  | .simple op => SOp.Ok op
  | .group ops => ∀ op ∈ ops, SOp.Ok op

/-- What every buffer satisfies while callers pass small positions. -/
structure Fine (b : Buf) : Prop where
  sane : Sane b
  fit : Fit b.data
  cursor : Small b.cursor.position
  previous : ∀ op ∈ b.history.previous, Op.Ok op
  next : ∀ op ∈ b.history.next, Op.Ok op
  group : ∀ ops, b.group = some ops → ∀ op ∈ ops, SOp.Ok op

/-- The part operations change. -/
structure Data (b : Buf) : Prop where
  rep : ∃ pre post, Rep b.data pre post
  fit : Fit b.data
  cursor : Small b.cursor.position

theorem report_data {b : Buf} (h : Data b) (p : Position) : Data (b.report p) := by
  unfold Buf.report; split <;> exact ⟨h.rep, h.fit, h.cursor⟩

theorem small_zero {n : Nat} (h : n ≤ maxLen) : Small ⟨n, 0⟩ := ⟨h, Nat.zero_le _⟩

theorem report_keeps {b : Buf} (p : Position) : (b.report p).data = b.data := by unfold Buf.report; split <;> rfl

theorem replaceContent_data {b b' : Buf} {t : Text} (h : Buf.replaceContent S A t b = .ok b') : b'.data = GapBuffer.new A b.data.clock t := by
  unfold Buf.replaceContent at h
  dsimp only at h
  obtain ⟨⟨ok, c1⟩, h1, h⟩ := bind_ok h
  cases ok with
  | true => cases h; rw [report_keeps]
  | false =>
    obtain ⟨⟨ok2, c2⟩, h3, h⟩ := bind_ok h
    cases h; rw [report_keeps]

theorem replaceContent_w {b b' : Buf} {t : Text} (hb : Data b) (h : Buf.replaceContent S A t b = .ok b') :
    Ag (Fit b'.data) Data (fun M => replaceContent M S A t b) b' := by
  have h0 := h
  have hn : Rep (GapBuffer.new A b.data.clock t) t [] := GapBuffer.new_rep _ _
  unfold Buf.replaceContent at h
  dsimp only at h
  obtain ⟨⟨ok, c1⟩, h1, h⟩ := bind_ok h
  unfold replaceContent
  refine Ag.iff ((new_w b.data.clock t).bindT fun hf => ?_) (by rw [replaceContent_data h0])
  dsimp only at h ⊢
  simp only [moveTo_w hn hf, h1, Except.ok_bind']
  have e1 := Cursor.moveTo_rep (S := S) hn (Cursor.new ⟨0, 0⟩) b.cursor.position
  have c1s : Small c1.position := by
    have := Except.ok.inj (h1.symm.trans e1)
    split at this <;> cases this
    · exact hb.cursor
    · exact small_zero (Nat.zero_le _)
  cases ok with
  | true =>
    simp only [Bool.not_true, Bool.false_eq_true, if_false] at h ⊢
    cases h
    exact .ret (report_data (b := { b with data := _, cursor := c1 }) ⟨⟨_, _, hn⟩, hf, c1s⟩ _)
  | false =>
    simp only [Bool.not_false, if_true] at h ⊢
    obtain ⟨⟨ok2, c2⟩, h3, h⟩ := bind_ok h
    cases h
    have e2 := Cursor.moveTo_rep (S := S) hn c1 ⟨b.cursor.position.line, 0⟩
    have c2s : Small c2.position := by
      have := Except.ok.inj (h3.symm.trans e2)
      split at this <;> cases this
      · exact small_zero hb.cursor.1
      · exact c1s
    simp only [h3, Except.ok_bind']
    exact .ret (report_data (b := { b with data := _, cursor := c2 }) ⟨⟨_, _, hn⟩, hf, c2s⟩ _)

theorem runOp_w {b : Buf} {op : SOp} {r : Buf × SOp} (hb : Data b) (ho : op.Ordered) (hs : SOp.Ok op) (h : Buf.runOp S A b op = .ok r) :
    Ag (Fit r.1.data) (fun r => Data r.1 ∧ SOp.Ok r.2) (fun M => runOp M S A b op) r := by
  obtain ⟨pre, post, hr⟩ := hb.rep
  have hf := hb.fit
  have hW := W_eq
  cases op with
  | insert s p =>
    simp only [Buf.runOp] at h
    obtain ⟨g, h1, h⟩ := bind_ok h
    cases h
    simp only [runOp]
    obtain ⟨g', k1, k2⟩ := insert_safe (S := S) (A := A) hr s p
    obtain rfl : g = g' := Except.ok.inj (h1.symm.trans k1)
    exact Ag.iff ((insert_w hr hf h1).bindT fun hf1 => .ret ⟨report_data (b := { b with data := g }) ⟨k2, hf1, hb.cursor⟩ _, hs⟩) (by rw [report_keeps])
  | delete c r =>
    simp only [Buf.runOp] at h
    obtain ⟨content, h1, h⟩ := bind_ok h
    obtain ⟨g, h2, h⟩ := bind_ok h
    cases h
    simp only [runOp]
    obtain ⟨g', k1, k2⟩ := delete_safe (S := S) hr r ho
    obtain rfl : g = g' := Except.ok.inj (h2.symm.trans k1)
    have hs' : r.stop.line ≤ maxLen + 1 := hs
    have hm := maxLen_pos
    have k := fun M => delete_w (M := M) hr hf (show r.stop.line + 1 < W by omega) h2
    refine .of_eqB (by rw [report_keeps]; exact (k .checked).2) (fun M => ?_) ⟨report_data (b := { b with data := g }) ⟨k2, (k .checked).2, hb.cursor⟩ _, hs⟩
    rw [read_w hr hf, h1, Except.ok_bind', (k M).1]
    rfl
  | replace o n =>
    simp only [Buf.runOp] at h
    obtain ⟨b', h1, h⟩ := bind_ok h
    cases h
    simp only [runOp]
    exact (replaceContent_w hb h1).bindT fun hd => .ret ⟨hd, trivial⟩

theorem countNl_le (s : Text) : countNl s ≤ blen s := by
  unfold countNl
  exact Nat.le_trans (List.length_filter_le _ _) (length_le_blen s)

theorem insertEnd_w {s : Text} {p : Position} (hp : Small p) (hs : blen s ≤ maxLen) : insertEnd M S s p = Buf.insertEnd S s p := by
  have hW := W_eq
  obtain ⟨h1, h2⟩ := hp
  have h3 := countNl_le s
  have h4 := length_segs_blen (S := S) s
  unfold insertEnd Buf.insertEnd
  have e : subU (p.line + (countNl s + 1)) 1 = .ok (p.line + (countNl s + 1) - 1) := if_pos (by omega)
  rw [addW_ok (by omega)]
  simp only [Except.ok_bind']
  rw [addW_ok (by omega)]
  simp only [Except.ok_bind']
  rw [e, subW_ok e]
  simp only [Except.ok_bind']
  rw [addW_ok (by omega)]
  simp only [Except.ok_bind']
  rfl

theorem insertEnd_line {s : Text} {p q : Position} (h : Buf.insertEnd S s p = .ok (some q)) : q.line = p.line + countNl s := by
  unfold Buf.insertEnd at h
  have e : subU (p.line + (countNl s + 1)) 1 = .ok (p.line + countNl s) := by
    unfold subU; rw [if_pos (by omega)]; rfl
  dsimp only at h
  rw [e, Except.ok_bind'] at h
  split at h
  · cases h; rfl
  · split at h
    · cases h; rfl
    · cases h

theorem reverseOp_w {b b' : Buf} {op : SOp} (hb : Data b) (hs : SOp.Ok op) (h : Buf.reverseOp S A b op = .ok b') :
    Ag (Fit b'.data) Data (fun M => reverseOp M S A b op) b' := by
  obtain ⟨pre, post, hr⟩ := hb.rep
  have hf := hb.fit
  have hW := W_eq
  cases op with
  | insert s p =>
    simp only [Buf.reverseOp] at h
    obtain ⟨q, h1, h⟩ := bind_ok h
    simp only [reverseOp]
    simp only [insertEnd_w hs.1 hs.2, h1, Except.ok_bind']
    cases q with
    | none => cases h; exact .retB hf hb
    | some q =>
      obtain ⟨g, h2, h⟩ := bind_ok h
      cases h
      obtain ⟨g', k1, k2⟩ := delete_safe (S := S) hr (Range.new p q) (range_new_ok p q)
      obtain rfl : g = g' := Except.ok.inj (h2.symm.trans k1)
      have e := insertEnd_line h1
      have e2 := countNl_le s
      have hl : (Range.new p q).stop.line + 1 < W := by
        have := hs.1.1
        have := hs.2
        rcases range_stop p q with e3 | e3 <;> rw [e3] <;> omega
      have k := fun M => delete_w (M := M) hr hf hl h2
      refine .of_eqB (by rw [report_keeps]; exact (k .checked).2) (fun M => ?_) (report_data (b := { b with data := g }) ⟨k2, (k .checked).2, hb.cursor⟩ _)
      dsimp only
      rw [(k M).1]
      rfl
  | delete c r =>
    cases c with
    | none => cases h; exact .retB hf hb
    | some c =>
      simp only [Buf.reverseOp] at h
      obtain ⟨g, h1, h⟩ := bind_ok h
      cases h
      simp only [reverseOp]
      obtain ⟨g', k1, k2⟩ := insert_safe (S := S) (A := A) hr c r.start
      obtain rfl : g = g' := Except.ok.inj (h1.symm.trans k1)
      exact Ag.iff ((insert_w hr hf h1).bindT fun hf1 => .ret (report_data (b := { b with data := g }) ⟨k2, hf1, hb.cursor⟩ _)) (by rw [report_keeps])
  | replace o n => exact replaceContent_w hb h

theorem runAll_w (ops : List SOp) {b b' : Buf} (hb : Data b) (ho : ∀ op ∈ ops, op.Ordered) (hs : ∀ op ∈ ops, SOp.Ok op)
    (h : Buf.runAll S A b ops = .ok b') : Ag (∀ g ∈ ranVectors S A b ops, Fit g) Data (fun M => runAll M S A b ops) b' := by
  induction ops generalizing b with
  | nil => cases h; exact .retB (by simp [ranVectors, undoneVectors]) hb
  | cons op ops ih =>
    unfold Buf.runAll at h
    obtain ⟨⟨b1, o1⟩, h1, h⟩ := bind_ok h
    unfold runAll
    refine Ag.iff (B := Fit b1.data ∧ ∀ g ∈ ranVectors S A b1 ops, Fit g) ((runOp_w hb (ho op (by simp)) (hs op (by simp)) h1).bind fun hd => ?_) (by simp only [ranVectors, h1, List.forall_mem_cons])
    exact ih hd.1 (fun x hx => ho x (by simp [hx])) (fun x hx => hs x (by simp [hx])) h

theorem reverseAll_w (ops : List SOp) {b b' : Buf} (hb : Data b) (hs : ∀ op ∈ ops, SOp.Ok op)
    (h : Buf.reverseAll S A b ops = .ok b') : Ag (∀ g ∈ undoneVectors S A b ops, Fit g) Data (fun M => reverseAll M S A b ops) b' := by
  induction ops generalizing b with
  | nil => cases h; exact .retB (by simp [ranVectors, undoneVectors]) hb
  | cons op ops ih =>
    unfold Buf.reverseAll at h
    obtain ⟨b1, h1, h⟩ := bind_ok h
    unfold reverseAll
    refine Ag.iff (B := Fit b1.data ∧ ∀ g ∈ undoneVectors S A b1 ops, Fit g) ((reverseOp_w hb (hs op (by simp)) h1).bind fun hd => ?_) (by simp only [undoneVectors, h1, List.forall_mem_cons])
    exact ih hd (fun x hx => hs x (by simp [hx])) h

theorem runAny_w {b b' : Buf} {op : Op} (hb : Data b) (ho : op.Ordered) (hs : Op.Ok op) (h : Buf.runAny S A b op = .ok b') :
    Ag (∀ g ∈ ranVectors S A b (editsOf op), Fit g) Data (fun M => runAny M S A b op) b' := by
  cases op with
  | simple op =>
    simp only [Buf.runAny] at h
    obtain ⟨⟨b1, o1⟩, h1, h⟩ := bind_ok h
    cases h
    exact Ag.iff ((runOp_w hb ho hs h1).bindT fun hd => .ret hd.1) (by simp [editsOf, ranVectors, h1])
  | group ops => exact runAll_w ops hb ho hs h

theorem reverseAny_w {b b' : Buf} {op : Op} (hb : Data b) (hs : Op.Ok op) (h : Buf.reverseAny S A b op = .ok b') :
    Ag (∀ g ∈ undoneVectors S A b (editsOf op).reverse, Fit g) Data (fun M => reverseAny M S A b op) b' := by
  cases op with
  | simple op => exact Ag.iff (reverseOp_w hb hs h) (by simp only [Buf.reverseAny] at h; simp [editsOf, undoneVectors, h])
  | group ops => exact reverseAll_w ops.reverse hb (fun x hx => hs x (by simpa using hx)) h

theorem Fine.data {b : Buf} (h : Fine b) : Data b := ⟨h.sane.data, h.fit, h.cursor⟩

/-- Everything but the data and cursor is as in a fine buffer. -/
theorem Fine.of_kept {b b' : Buf} (h : Fine b) (k : Kept b b') (d : Data b') : Fine b' :=
  ⟨k.sane h.sane, d.fit, d.cursor, by rw [k.history]; exact h.previous, by rw [k.history]; exact h.next, by rw [k.group]; exact h.group⟩

theorem store_fine {b : Buf} {op : SOp} (h : Fine b) (ho : op.Ordered) (hs : SOp.Ok op) : Fine (b.store op) := by
  have hsane := store_sane h.sane ⟨h.sane.data, rfl, rfl⟩ ho
  unfold Buf.store at hsane ⊢
  cases hg : b.group with
  | none =>
    rw [hg] at hsane
    refine ⟨hsane, h.fit, h.cursor, ?_, ?_, ?_⟩
    · intro x hx
      simp only [History.add, List.mem_cons] at hx
      rcases hx with rfl | hx
      · exact hs
      · exact h.previous x hx
    · intro x hx; simp [History.add] at hx
    · intro ops hx; cases hx
  | some ops =>
    rw [hg] at hsane
    refine ⟨hsane, h.fit, h.cursor, h.previous, h.next, ?_⟩
    intro ops' hx x hm
    simp only [Option.some.injEq] at hx
    subst hx
    rcases List.mem_append.mp hm with hm | hm
    · exact h.group ops hg x hm
    · simp at hm; subst hm; exact hs

theorem store_keeps {b : Buf} (op : SOp) : (b.store op).data = b.data := by unfold Buf.store; split <;> rfl

theorem runStore_w {b b' : Buf} {op : SOp} (hb : Fine b) (ho : op.Ordered) (hs : SOp.Ok op)
    (h : (do let (b, op) ← Buf.runOp S A b op; return b.store op : R Buf) = .ok b') :
    Ag (Fit b'.data) Fine (fun M => (do let (b, op) ← runOp M S A b op; return b.store op : R Buf)) b' := by
  obtain ⟨⟨b1, o1⟩, h1, h⟩ := bind_ok h
  obtain ⟨b2, o2, k1, k2, k3⟩ := runOp_safe (S := S) (A := A) hb.sane.data op ho
  obtain ⟨rfl, rfl⟩ := Prod.mk.inj (Except.ok.inj (h1.symm.trans k1))
  cases h
  exact Ag.iff ((runOp_w hb.data ho hs h1).bindT fun hd => .ret (store_fine (hb.of_kept k2 hd.1) k3 hd.2)) (by rw [store_keeps])

theorem replace_w {b b' : Buf} {t : Text} (hb : Fine b) (h : Buf.replace S A b t = .ok b') : Ag (Fit b'.data) Fine (fun M => replace M S A b t) b' := by
  obtain ⟨pre, post, hr⟩ := hb.sane.data
  unfold Buf.replace at h
  unfold replace
  simp only [toStr_w hr hb.fit]
  simp only [hr.toStr, Except.ok_bind'] at h ⊢
  split at h
  · next he => simp only [if_pos he]; cases h; exact .retB hb.fit hb
  · next he => simp only [if_neg he]; exact runStore_w hb trivial trivial h

theorem pop_w {b b' : Buf} (hb : Fine b)
    (h : (match b.history.back.1 with
      | some op => Buf.reverseAny S A { b with history := b.history.back.2 } op
      | none => pure { b with history := b.history.back.2 }) = .ok b') :
    Ag (∀ g ∈ (match b.history.back.1 with
      | some op => undoneVectors S A { b with history := b.history.back.2 } (editsOf op).reverse
      | none => []), Fit g) Fine (fun M => match b.history.back.1 with
      | some op => reverseAny M S A { b with history := b.history.back.2 } op
      | none => pure { b with history := b.history.back.2 }) b' := by
  unfold History.back at h ⊢
  cases hp : b.history.previous with
  | nil => rw [hp] at h; cases h; exact .retB (by simp) hb
  | cons op ops =>
    rw [hp] at h
    dsimp only at h ⊢
    have hb1 : Fine { b with history := { b.history with previous := ops, next := op :: b.history.next } } := by
      refine ⟨⟨hb.sane.data, ?_, ?_, hb.sane.group⟩, hb.fit, hb.cursor, ?_, ?_, hb.group⟩
      · intro x hx; exact hb.sane.previous x (by rw [hp]; simp; right; exact hx)
      · intro x hx
        simp only [List.mem_cons] at hx
        rcases hx with rfl | hx
        · exact hb.sane.previous _ (by rw [hp]; simp)
        · exact hb.sane.next x hx
      · intro x hx; exact hb.previous x (by rw [hp]; simp; right; exact hx)
      · intro x hx
        simp only [List.mem_cons] at hx
        rcases hx with rfl | hx
        · exact hb.previous _ (by rw [hp]; simp)
        · exact hb.next x hx
    obtain ⟨b2, k1, k2⟩ := reverseAny_safe (S := S) (A := A) hb1.sane.data op
    obtain rfl : b' = b2 := Except.ok.inj (h.symm.trans k1)
    exact (reverseAny_w hb1.data (hb.previous op (by rw [hp]; simp)) h).mono fun hd => hb1.of_kept k2 hd

/-- What the caller must respect: positions with coordinates up to `isize::MAX`, strings that exist. -/
def CmdOk : Buf.Cmd → Prop
  | .insert s => blen s ≤ maxLen
  | .deleteRange p q => p.line ≤ maxLen ∧ q.line ≤ maxLen
  | .setCursor p => Small p
  | _ => True

theorem exec_w {b b' : Buf} (hb : Fine b) (c : Buf.Cmd) (hc : CmdOk c) (h : Buf.exec S A b c = .ok b') :
    Ag (∀ g ∈ vectors S A b c, Fit g) Fine (fun M => exec M S A b c) b' := by
  obtain ⟨pre, post, hr⟩ := hb.sane.data
  have hf := hb.fit
  have hW := W_eq
  obtain ⟨b2, k1, k2⟩ := exec_safe (S := S) (A := A) hb.sane c
  obtain rfl : b' = b2 := Except.ok.inj (h.symm.trans k1)
  have hx := h
  cases c with
  | insert s => exact Ag.iff (runStore_w hb trivial ⟨hb.cursor, hc⟩ h) (by simp [vectors, hx])
  | delete =>
    have c1 := hb.cursor.1
    have c2 := hb.cursor.2
    refine Ag.iff (B := Fit b'.data) ?_ (by simp [vectors, hx])
    simp only [Buf.exec, Buf.delete] at h
    obtain ⟨v, h1, h⟩ := bind_ok h
    simp only [exec, bufDelete]
    simp only [addW_ok (show b.cursor.position.offset + 1 < W by omega), Except.ok_bind', inBounds_w hr hf, h1]
    cases v with
    | true =>
      simp only [if_true]
      exact runStore_w hb (range_new_ok _ _) (by
        have : _ ∨ _ := range_stop b.cursor.position ⟨b.cursor.position.line, b.cursor.position.offset + 1⟩
        show (Range.new _ _).stop.line ≤ maxLen + 1
        rcases this with e | e <;> rw [e] <;> (try dsimp only) <;> omega) h
    | false =>
      simp only [Bool.false_eq_true, if_false]
      simp only [addW_ok (show b.cursor.position.line + 1 < W by omega), Except.ok_bind']
      exact runStore_w hb (range_new_ok _ _) (by
        have : _ ∨ _ := range_stop b.cursor.position ⟨b.cursor.position.line + 1, 0⟩
        show (Range.new _ _).stop.line ≤ maxLen + 1
        rcases this with e | e <;> rw [e] <;> (try dsimp only) <;> omega) h
  | deleteRange p q =>
    refine Ag.iff (runStore_w hb (range_new_ok p q) ?_ h) (by simp [vectors, hx])
    have h1 := hc.1
    have h2 := hc.2
    show (Range.new _ _).stop.line ≤ maxLen + 1
    rcases range_stop p q with e | e <;> rw [e] <;> omega
  | replace t => exact Ag.iff (replace_w hb h) (by simp [vectors, hx])
  | undo =>
    have hn : Fine { b with group := none } :=
      ⟨⟨hb.sane.data, hb.sane.previous, hb.sane.next, by simp⟩, hb.fit, hb.cursor, hb.previous, hb.next, by simp⟩
    simp only [Buf.exec, Buf.undo] at h
    simp only [exec, undo]
    cases hg : b.group with
    | none => rw [hg] at h; exact Ag.iff (pop_w hn h) (by simp only [vectors, hg]; rfl)
    | some ops =>
      rw [hg] at h
      dsimp only at h ⊢
      split at h
      · next he => simp only [if_pos he]; exact Ag.iff (pop_w hn h) (by
          obtain rfl : ops = [] := by simpa using he
          simp only [vectors, hg]; rfl)
      · next he =>
        simp only [if_neg he]
        obtain ⟨b2, k1, k2⟩ := reverseAny_safe (S := S) (A := A) hn.sane.data (.group ops)
        obtain rfl : b' = b2 := Except.ok.inj (h.symm.trans k1)
        refine Ag.iff ((reverseAny_w (op := .group ops) hn.data (hb.group ops hg) h).mono fun hd => hn.of_kept k2 hd) ?_
        cases ops with
        | nil => exact absurd rfl he
        | cons op ops => simp only [vectors, hg]; rfl
  | redo =>
    simp only [Buf.exec, Buf.redo, History.forth] at h
    simp only [exec, redo, History.forth]
    cases hp : b.history.next with
    | nil => rw [hp] at h; cases h; exact .retB (by simp [vectors, History.forth, hp]) hb
    | cons op ops =>
      rw [hp] at h
      dsimp only at h ⊢
      have hb1 : Fine { b with history := { b.history with next := ops, previous := op :: b.history.previous } } := by
        refine ⟨⟨hb.sane.data, ?_, ?_, hb.sane.group⟩, hb.fit, hb.cursor, ?_, ?_, hb.group⟩
        · intro x hx
          simp only [List.mem_cons] at hx
          rcases hx with rfl | hx
          · exact hb.sane.next _ (by rw [hp]; simp)
          · exact hb.sane.previous x hx
        · intro x hx; exact hb.sane.next x (by rw [hp]; simp; right; exact hx)
        · intro x hx
          simp only [List.mem_cons] at hx
          rcases hx with rfl | hx
          · exact hb.next _ (by rw [hp]; simp)
          · exact hb.previous x hx
        · intro x hx; exact hb.next x (by rw [hp]; simp; right; exact hx)
      have ho := hb.sane.next op (by rw [hp]; simp)
      obtain ⟨b2, k1, k2⟩ := runAny_safe (S := S) (A := A) hb1.sane.data op ho
      obtain rfl : b' = b2 := Except.ok.inj (h.symm.trans k1)
      exact Ag.iff ((runAny_w hb1.data ho (hb.next op (by rw [hp]; simp)) h).mono fun hd => hb1.of_kept k2 hd) (by simp only [vectors, History.forth, hp])
  | startGroup =>
    cases h
    refine .retB (by simp only [vectors, hx, List.forall_mem_singleton]; unfold Buf.startGroup; split <;> exact hb.fit) ⟨k2, ?_, ?_, ?_, ?_, ?_⟩ <;> unfold Buf.startGroup <;> cases hg : b.group
    · exact hb.fit
    · exact hb.fit
    · exact hb.cursor
    · exact hb.cursor
    · exact hb.previous
    · exact hb.previous
    · exact hb.next
    · exact hb.next
    · intro ops hx x hm; simp only [Option.some.injEq] at hx; subst hx; cases hm
    · exact hb.group
  | endGroup =>
    cases h
    simp only [exec]
    refine .retB (by simp only [vectors, hx, List.forall_mem_singleton]; unfold Buf.endGroup; split <;> (try split) <;> exact hb.fit) ?_
    unfold Buf.endGroup at k2 ⊢
    cases hg : b.group with
    | none => exact hb
    | some ops =>
      rw [hg] at k2
      dsimp only at k2 ⊢
      split at k2
      · next he => rw [if_pos he]; exact ⟨k2, hb.fit, hb.cursor, hb.previous, hb.next, by simp⟩
      · next he =>
        rw [if_neg he]
        refine ⟨k2, hb.fit, hb.cursor, ?_, ?_, by simp⟩
        · intro x hx
          simp only [History.add, List.mem_cons] at hx
          rcases hx with rfl | hx
          · exact hb.group ops hg
          · exact hb.previous x hx
        · intro x hx; simp [History.add] at hx
  | move m =>
    simp only [Buf.exec] at h
    obtain ⟨c', h1, h⟩ := bind_ok h
    cases h
    simp only [exec]
    refine .of_eqB (by simp only [vectors, hx, List.forall_mem_singleton]; exact hb.fit) (fun M => by rw [move_w hr hf _ hb.cursor, h1]; rfl) ⟨k2, hb.fit, ?_, hb.previous, hb.next, hb.group⟩
    obtain ⟨c2, m1, m2⟩ := Cursor.move_rep (S := S) hr b.cursor m
    obtain rfl : c' = c2 := Except.ok.inj (h1.symm.trans m1)
    rcases m2 with m2 | m2
    · show Small c'.position; rw [m2]; exact hb.cursor
    · exact bounds_small hr hf m2
  | setCursor p => cases h; exact .retB (by simp only [vectors, hx, List.forall_mem_singleton]; exact hb.fit) ⟨k2, hb.fit, hc, hb.previous, hb.next, hb.group⟩
  | setCallback v => cases h; exact .retB (by simp only [vectors, hx, List.forall_mem_singleton]; exact hb.fit) ⟨k2, hb.fit, hb.cursor, hb.previous, hb.next, hb.group⟩
  | saved => cases h; exact .retB (by simp only [vectors, hx, List.forall_mem_singleton]; exact hb.fit) ⟨k2, hb.fit, hb.cursor, hb.previous, hb.next, hb.group⟩
  | reload t =>
    simp only [Buf.exec, Buf.reloadWith] at h
    obtain ⟨b1, h1, h⟩ := bind_ok h
    cases h
    simp only [exec]
    exact Ag.iff ((replace_w hb h1).bindT fun hd => .ret ⟨k2, hd.fit, hd.cursor, hd.previous, hd.next, hd.group⟩) (by
      simp only [vectors, hx, List.forall_mem_singleton]; rfl)

theorem execAll_w (cs : List Buf.Cmd) {b b' : Buf} (hb : Fine b) (hc : ∀ c ∈ cs, CmdOk c) (h : Buf.execAll S A b cs = .ok b') :
    Ag (∀ g ∈ callVectors S A b cs, Fit g) Fine (fun M => execAll M S A b cs) b' := by
  induction cs generalizing b with
  | nil => cases h; exact .retB (by simp [callVectors]) hb
  | cons c cs ih =>
    unfold Buf.execAll at h
    obtain ⟨b1, h1, h⟩ := bind_ok h
    unfold execAll
    exact Ag.iff (B := (∀ g ∈ vectors S A b c, Fit g) ∧ ∀ g ∈ callVectors S A b1 cs, Fit g)
      ((exec_w hb c (hc c (by simp)) h1).bind fun hd => ih hd (fun x hx => hc x (by simp [hx])) h)
      (by simp only [callVectors, h1, List.forall_mem_append])

end Scribe.Machine
