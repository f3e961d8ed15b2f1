import Verif.Spec.Heap
import Verif.Proofs.Safe
import Mathlib.Data.List.Perm.Basic
/-! Counts of pointers. -/
namespace Scribe.Heap

def SlotOk : Option Slot → Nat → Prop
  | some (.live n g), k => n = k ∧ 0 < k ∧ ∃ pre post, Rep g pre post
  | _, k => k = 0

/-- Every count is right. -/
def Inv (h : Store) (L : List Ref) : Prop := ∀ p, SlotOk h[p]? (L.count p)

theorem Inv.of_count {h : Store} {L L' : List Ref} (i : Inv h L) (e : ∀ p, L.count p = L'.count p) : Inv h L' :=
  fun p => e p ▸ i p

theorem Inv.perm {h : Store} {L L' : List Ref} (i : Inv h L) (e : L.Perm L') : Inv h L' := i.of_count fun p => e.count_eq p

theorem Inv.live {h : Store} {L : List Ref} (i : Inv h L) {p : Ref} (hp : p ∈ L) :
    ∃ n g, h[p]? = some (.live n g) ∧ n = L.count p ∧ ∃ pre post, Rep g pre post := by
  have := i p
  have h0 : 0 < L.count p := List.count_pos_iff.mpr hp
  cases hs : h[p]? with
  | none => rw [hs] at this; simp only [SlotOk] at this; omega
  | some s =>
    cases s with
    | freed => rw [hs] at this; simp only [SlotOk] at this; omega
    | live n g => rw [hs] at this; exact ⟨n, g, rfl, this.1, this.2.2⟩

theorem Inv.gap {h : Store} {L : List Ref} (i : Inv h L) {p : Ref} (hp : p ∈ L) :
    ∃ g, gapAt h p = some g ∧ get h p = .ok g ∧ ∃ pre post, Rep g pre post := by
  obtain ⟨n, g, h1, _, h2⟩ := i.live hp
  exact ⟨g, by simp [gapAt, h1], by simp [get, h1], h2⟩

theorem get_of_gapAt {h : Store} {p : Ref} {g : GapBuffer} (e : gapAt h p = some g) : get h p = .ok g := by
  unfold gapAt at e
  unfold get
  split at e
  · rename_i h1; cases e; rw [h1]
  · cases e

theorem Inv.fresh {h : Store} {L : List Ref} (i : Inv h L) : h.length ∉ L := by
  intro hp
  obtain ⟨n, g, h1, _⟩ := i.live hp
  simp at h1

theorem Inv.new {h : Store} {L : List Ref} (i : Inv h L) {g : GapBuffer} (hg : ∃ pre post, Rep g pre post) :
    Inv (rcNew h g).2 ((rcNew h g).1 :: L) ∧ (∀ q ∈ L, gapAt (rcNew h g).2 q = gapAt h q) ∧ gapAt (rcNew h g).2 (rcNew h g).1 = some g := by
  refine ⟨?_, ?_, ?_⟩
  · intro p
    simp only [rcNew]
    by_cases hp : p = h.length
    · subst hp
      have := i.fresh
      simp [SlotOk, List.count_eq_zero.mpr this, hg]
    · rw [List.count_cons_of_ne (Ne.symm hp)]
      have e : (h ++ [Slot.live 1 g])[p]? = h[p]? := by
        by_cases hl : p < h.length
        · rw [List.getElem?_append_left hl]
        · have hp' : h.length + 1 ≤ p := Nat.lt_of_le_of_ne (Nat.le_of_not_lt hl) (Ne.symm hp)
          rw [List.getElem?_eq_none (by simpa using hp'), List.getElem?_eq_none (Nat.le_of_succ_le hp')]
      rw [e]
      exact i p
  · intro q hq
    obtain ⟨n, g', h1, _⟩ := i.live hq
    have hl : q < h.length := by
      by_contra hc
      rw [List.getElem?_eq_none (Nat.le_of_not_lt hc)] at h1
      cases h1
    simp only [gapAt, rcNew, List.getElem?_append_left hl]
  · simp [gapAt, rcNew]

theorem Inv.clone {h : Store} {L : List Ref} (i : Inv h L) {p : Ref} (hp : p ∈ L) :
    ∃ h', rcClone h p = .ok h' ∧ Inv h' (p :: L) ∧ (∀ q, gapAt h' q = gapAt h q) := by
  obtain ⟨n, g, h1, h2, h3⟩ := i.live hp
  have hl : p < h.length := (List.getElem?_eq_some_iff.mp h1).1
  refine ⟨h.set p (.live (n + 1) g), by simp [rcClone, h1], ?_, ?_⟩
  · intro q
    by_cases hq : p = q
    · subst hq
      rw [List.getElem?_set_self hl, List.count_cons_self]
      exact ⟨by omega, by omega, h3⟩
    · rw [List.getElem?_set_ne hq, List.count_cons_of_ne hq]
      exact i q
  · intro q
    unfold gapAt
    by_cases hq : p = q
    · subst hq
      rw [List.getElem?_set_self hl, h1]
    · rw [List.getElem?_set_ne hq]

theorem Inv.drop {h : Store} {L : List Ref} {p : Ref} (i : Inv h (p :: L)) :
    ∃ h', rcDrop h p = .ok h' ∧ Inv h' L ∧ (∀ q ∈ L, gapAt h' q = gapAt h q) := by
  obtain ⟨n, g, h1, h2, h3⟩ := i.live (p := p) (by simp)
  have hl : p < h.length := (List.getElem?_eq_some_iff.mp h1).1
  rw [List.count_cons_self] at h2
  refine ⟨h.set p (if n ≤ 1 then .freed else .live (n - 1) g), by simp only [rcDrop, h1], ?_, ?_⟩
  · intro q
    by_cases hq : p = q
    · subst hq
      rw [List.getElem?_set_self hl]
      split
      · simp only [SlotOk]; omega
      · exact ⟨by omega, by omega, h3⟩
    · rw [List.getElem?_set_ne hq]
      have := i q
      rwa [List.count_cons_of_ne hq] at this
  · intro q hm
    unfold gapAt
    by_cases hq : p = q
    · subst hq
      have : 0 < L.count p := List.count_pos_iff.mpr hm
      rw [List.getElem?_set_self hl, h1, if_neg (by omega)]
    · rw [List.getElem?_set_ne hq]

theorem Inv.drops {ps : List Ref} {h : Store} {L : List Ref} (i : Inv h (ps ++ L)) :
    ∃ h', rcDrops h ps = .ok h' ∧ Inv h' L ∧ (∀ q ∈ L, gapAt h' q = gapAt h q) := by
  induction ps generalizing h with
  | nil => exact ⟨h, rfl, i, fun _ _ => rfl⟩
  | cons p ps ih =>
    obtain ⟨h1, e1, i1, g1⟩ := i.drop
    obtain ⟨h2, e2, i2, g2⟩ := ih i1
    exact ⟨h2, by simp only [rcDrops, e1, Except.ok_bind', e2], i2, fun q hq => (g2 q hq).trans (g1 q (by simp [hq]))⟩

theorem Inv.put {h : Store} {L : List Ref} (i : Inv h L) {p : Ref} (hp : p ∈ L) {g : GapBuffer} (hg : ∃ pre post, Rep g pre post) :
    ∃ h', put h p g = .ok h' ∧ Inv h' L ∧ gapAt h' p = some g ∧ (∀ q, q ≠ p → gapAt h' q = gapAt h q) := by
  obtain ⟨n, g0, h1, h2, h3⟩ := i.live hp
  have hl : p < h.length := (List.getElem?_eq_some_iff.mp h1).1
  have h0 : 0 < L.count p := List.count_pos_iff.mpr hp
  refine ⟨h.set p (.live n g), by simp [Heap.put, h1], ?_, ?_, ?_⟩
  · intro q
    by_cases hq : p = q
    · subst hq
      rw [List.getElem?_set_self hl]
      exact ⟨h2, h0, hg⟩
    · rw [List.getElem?_set_ne hq]
      exact i q
  · unfold gapAt
    rw [List.getElem?_set_self hl]
  · intro q hq
    unfold gapAt
    rw [List.getElem?_set_ne (Ne.symm hq)]

/-- What a buffer is, without pointers. -/
structure View (h : Store) (b : HBuf) (v : Buf) : Prop where
  data : gapAt h b.data = some v.data
  cursor : v.cursor = b.cursor.at_
  history : v.history = b.history
  group : v.group = b.group
  callback : v.callback = b.callback.isSome
  log : v.log = b.log

structure Good (L : List Ref) (h : Store) (b : HBuf) (h' : Store) (b' : HBuf) (v' : Buf) : Prop where
  inv : Inv h' (own b' ++ L)
  view : View h' b' v'
  callback : b'.callback = b.callback
  keeps : b.cursor.data = b.data → b'.cursor.data = b'.data
  frame : ∀ q ∈ L, q ≠ b.data → gapAt h' q = gapAt h q
  moved : b'.data = b.data ∨ b'.data ∉ L

theorem Good.trans {L : List Ref} {h h1 h2 : Store} {b b1 b2 : HBuf} {v1 v2 : Buf} (k1 : Good L h b h1 b1 v1) (k2 : Good L h1 b1 h2 b2 v2) :
    Good L h b h2 b2 v2 := by
  refine ⟨k2.inv, k2.view, k2.callback.trans k1.callback, fun e => k2.keeps (k1.keeps e), ?_, ?_⟩
  · intro q hq hn
    refine (k2.frame q hq ?_).trans (k1.frame q hq hn)
    rcases k1.moved with e | e
    · rwa [e]
    · intro hc; exact e (hc ▸ hq)
  · rcases k2.moved with e | e
    · rw [e]; exact k1.moved
    · exact Or.inr e

theorem touch_ok {h : Store} {L : List Ref} (i : Inv h L) {ps : List Ref} (hp : ∀ p ∈ ps, p ∈ L) : HBuf.touch h ps = .ok () := by
  induction ps with
  | nil => rfl
  | cons p ps ih =>
    obtain ⟨g, _, e, _⟩ := i.gap (hp p (by simp))
    simp only [HBuf.touch, e, Except.ok_bind']
    exact ih fun q hq => hp q (by simp [hq])

/-- The callback. -/
theorem report_ok {h : Store} {L : List Ref} {b : HBuf} {v : Buf} (i : Inv h (own b ++ L)) (w : View h b v) (p : Position) :
    ∃ b', HBuf.report h b p = .ok b' ∧ View h b' (v.report p) ∧ b'.data = b.data ∧ b'.cursor = b.cursor ∧ b'.callback = b.callback := by
  unfold HBuf.report Buf.report
  rw [w.callback]
  cases hc : b.callback with
  | none => exact ⟨b, rfl, w, rfl, rfl, hc⟩
  | some ps =>
    have := touch_ok i (ps := ps) fun p hp => by simp [own, hc, hp]
    simp only [this, Except.ok_bind']
    refine ⟨{ b with callback := some ps, log := b.log ++ [p] }, rfl, ⟨w.data, w.cursor, w.history, w.group, rfl, ?_⟩, rfl, rfl, rfl⟩
    · show v.log ++ [p] = b.log ++ [p]
      rw [w.log]

theorem lift_ok {α : Type} {x : R α} {a : α} (h : x = .ok a) : lift x = .ok a := by rw [h]; rfl

/-- An edit in place. -/
theorem put_good {h : Store} {L : List Ref} {b : HBuf} {v : Buf} (i : Inv h (own b ++ L)) (w : View h b v) {g : GapBuffer}
    (hg : ∃ pre post, Rep g pre post) (p : Position) :
    ∃ h', put h b.data g = .ok h' ∧ ∃ b', HBuf.report h' b p = .ok b' ∧ Good L h b h' b' (({ v with data := g } : Buf).report p) := by
  obtain ⟨h', e1, i1, g1, g2⟩ := i.put (p := b.data) (by simp [own]) hg
  have w1 : View h' b ({ v with data := g } : Buf) := ⟨g1, w.cursor, w.history, w.group, w.callback, w.log⟩
  obtain ⟨b', e2, w2, d2, c2, k2⟩ := report_ok i1 w1 p
  refine ⟨h', e1, b', e2, ?_, w2, k2, fun hb => by rw [c2, d2]; exact hb, fun q _ hq => g2 q hq, Or.inl d2⟩
  simpa only [own, d2, c2, k2] using i1

variable {S : Segmenter} {A : Alloc}

theorem replaceContent_good {h : Store} {L : List Ref} {b : HBuf} {v v' : Buf} (i : Inv h (own b ++ L)) (w : View h b v) {t : Text}
    (e : Buf.replaceContent S A t v = .ok v') : ∃ b' h', HBuf.replaceContent S A h t b = .ok (b', h') ∧ Good L h b h' b' v' ∧
      b'.data ∉ own b ++ L ∧ ∀ q ∈ b.callback.getD [] ++ L, gapAt h' q = gapAt h q := by
  have hn : Rep (GapBuffer.new A v.data.clock t) t [] := GapBuffer.new_rep _ _
  obtain ⟨i1, g1, n1⟩ := i.new ⟨_, _, hn⟩
  generalize hp : (rcNew h (GapBuffer.new A v.data.clock t)).1 = p at i1 n1
  generalize hh : (rcNew h (GapBuffer.new A v.data.clock t)).2 = h1 at i1 g1 n1
  have hfresh : p ∉ own b ++ L := by rw [← hp]; exact i.fresh
  obtain ⟨h2, e2, i2, g2⟩ := i1.clone (p := p) (by simp)
  have i2' : Inv h2 (b.data :: b.cursor.data :: (p :: p :: (b.callback.getD [] ++ L))) := i2.of_count fun q => by
    simp only [own, List.cons_append, List.count_cons, List.count_append]; omega
  obtain ⟨h3, e3, i3, g3⟩ := i2'.drop
  obtain ⟨h4, e4, i4, g4⟩ := i3.drop
  have gap2 : gapAt h2 p = some (GapBuffer.new A v.data.clock t) := (g2 p).trans n1
  have fin : ∀ cu : Cursor, ∃ b', HBuf.report h4 ({ b with data := p, cursor := ⟨p, cu⟩ } : HBuf) Position.new = .ok b' ∧
      Good L h b h4 b' (({ v with data := GapBuffer.new A v.data.clock t, cursor := cu } : Buf).report Position.new) ∧
      b'.data ∉ own b ++ L ∧ ∀ q ∈ b.callback.getD [] ++ L, gapAt h4 q = gapAt h q := by
    intro cu
    have w4 : View h4 ({ b with data := p, cursor := ⟨p, cu⟩ } : HBuf) ({ v with data := GapBuffer.new A v.data.clock t, cursor := cu } : Buf) :=
      ⟨((g4 p (by simp)).trans (g3 p (by simp))).trans gap2, rfl, w.history, w.group, w.callback, w.log⟩
    have i4' : Inv h4 (own ({ b with data := p, cursor := ⟨p, cu⟩ } : HBuf) ++ L) := i4
    obtain ⟨b', e5, w5, d5, c5, k5⟩ := report_ok i4' w4 Position.new
    have fr : ∀ q ∈ b.callback.getD [] ++ L, gapAt h4 q = gapAt h q := by
      intro q hq
      have hq' := List.mem_append.mp hq
      exact (((g4 q (by simp [hq'])).trans (g3 q (by simp [hq']))).trans (g2 q)).trans (g1 q (by rw [own]; simp [hq']))
    refine ⟨b', e5, ⟨?_, w5, k5, fun _ => by rw [c5, d5], ?_, Or.inr ?_⟩, ?_, fr⟩
    · simpa only [own, d5, c5, k5] using i4'
    · intro q hq _
      exact fr q (by simp [hq])
    · rw [d5]
      exact fun hc => hfresh (by simp [hc])
    · rwa [d5]
  unfold Buf.replaceContent at e
  unfold HBuf.replaceContent
  simp only [get_of_gapAt w.data, hp, hh, e2, Except.ok_bind', get_of_gapAt gap2]
  rw [w.cursor] at e
  dsimp only at e
  obtain ⟨⟨ok, cu⟩, m1⟩ := moveTo_safe (S := S) hn (Cursor.new ⟨0, 0⟩) b.cursor.at_.position
  simp only [m1, Except.ok_bind'] at e
  simp only [lift_ok m1, Except.ok_bind']
  cases ok with
  | true =>
    obtain ⟨b', e5, k5⟩ := fin cu
    cases e
    refine ⟨b', h4, ?_, k5⟩
    simp only [Bool.not_true, Bool.false_eq_true, if_false, pure_bind, e3, HCursor.drop, e4, Except.ok_bind', e5]
    rfl
  | false =>
    obtain ⟨⟨ok2, cu2⟩, m2⟩ := moveTo_safe (S := S) hn cu ⟨b.cursor.at_.position.line, 0⟩
    simp only [m2, Except.ok_bind'] at e
    obtain ⟨b', e5, k5⟩ := fin cu2
    cases e
    refine ⟨b', h4, ?_, k5⟩
    simp only [Bool.not_false, if_true, lift_ok m2, Except.ok_bind', pure_bind, e3, HCursor.drop, e4, e5]
    rfl

theorem replaceContent_own {h h' : Store} {b b' : HBuf} {t : Text} (e : HBuf.replaceContent S A h t b = .ok (b', h')) : b'.cursor.data = b'.data := by
  have rep : ∀ {h : Store} {b b' : HBuf} {p : Position}, HBuf.report h b p = .ok b' → b'.data = b.data ∧ b'.cursor = b.cursor := by
    intro h b b' p hr
    unfold HBuf.report at hr
    split at hr
    · cases hr; exact ⟨rfl, rfl⟩
    · rename_i ps _
      cases ht : HBuf.touch h ps with
      | error x => rw [ht] at hr; cases hr
      | ok u => rw [ht] at hr; cases hr; exact ⟨rfl, rfl⟩
  unfold HBuf.replaceContent at e
  simp only [bind, Except.bind] at e
  repeat' split at e
  all_goals first
    | cases e; done
    | (rename_i hr; cases e; have := rep hr; rw [this.1, this.2])

theorem View.rep {h : Store} {L : List Ref} {b : HBuf} {v : Buf} (i : Inv h (own b ++ L)) (w : View h b v) : ∃ pre post, Rep v.data pre post := by
  obtain ⟨g, e, _, hr⟩ := i.gap (p := b.data) (by simp [own])
  rw [w.data] at e
  cases e
  exact hr

theorem runOp_good {h : Store} {L : List Ref} {b : HBuf} {v v' : Buf} (i : Inv h (own b ++ L)) (w : View h b v) {op op' : SOp} (ho : op.Ordered)
    (e : Buf.runOp S A v op = .ok (v', op')) : ∃ b' h', HBuf.runOp S A h b op = .ok (b', op', h') ∧ Good L h b h' b' v' := by
  obtain ⟨pre, post, hr⟩ := w.rep i
  cases op with
  | insert s p =>
    obtain ⟨g', h1, h2⟩ := insert_safe (S := S) (A := A) hr s p
    simp only [Buf.runOp, h1, Except.ok_bind'] at e
    cases e
    obtain ⟨h', e1, b', e2, k⟩ := put_good i w h2 p
    exact ⟨b', h', by simp only [HBuf.runOp, get_of_gapAt w.data, lift_ok h1, Except.ok_bind', e1, e2]; rfl, k⟩
  | delete c r =>
    obtain ⟨g', h1, h2⟩ := delete_safe (S := S) hr r ho
    simp only [Buf.runOp, GapBuffer.read_rep hr r ho, h1, Except.ok_bind'] at e
    cases e
    obtain ⟨h', e1, b', e2, k⟩ := put_good i w h2 r.start
    exact ⟨b', h', by simp only [HBuf.runOp, get_of_gapAt w.data, lift_ok h1, lift_ok (GapBuffer.read_rep hr r ho), Except.ok_bind', e1, e2]; rfl, k⟩
  | replace o n =>
    obtain ⟨b1, h1, _⟩ := replaceContent_safe (S := S) (A := A) v n
    simp only [Buf.runOp, h1, Except.ok_bind'] at e
    cases e
    obtain ⟨b', h', e1, k, _⟩ := replaceContent_good i w h1
    exact ⟨b', h', by simp only [HBuf.runOp, e1, Except.ok_bind']; rfl, k⟩

theorem reverseOp_good {h : Store} {L : List Ref} {b : HBuf} {v v' : Buf} (i : Inv h (own b ++ L)) (w : View h b v) {op : SOp}
    (e : Buf.reverseOp S A v op = .ok v') : ∃ b' h', HBuf.reverseOp S A h b op = .ok (b', h') ∧ Good L h b h' b' v' := by
  obtain ⟨pre, post, hr⟩ := w.rep i
  have same : Good L h b h b v := ⟨i, w, rfl, id, fun _ _ _ => rfl, Or.inl rfl⟩
  cases op with
  | insert s p =>
    obtain ⟨q, hq⟩ := insertEnd_safe (S := S) s p
    simp only [Buf.reverseOp, hq, Except.ok_bind'] at e
    cases q with
    | none =>
      cases e
      exact ⟨b, h, by simp only [HBuf.reverseOp, lift_ok hq, Except.ok_bind']; rfl, same⟩
    | some q =>
      obtain ⟨g', h1, h2⟩ := delete_safe (S := S) hr (Range.new p q) (range_new_ok p q)
      simp only [h1, Except.ok_bind'] at e
      cases e
      obtain ⟨h', e1, b', e2, k⟩ := put_good i w h2 p
      exact ⟨b', h', by simp only [HBuf.reverseOp, get_of_gapAt w.data, lift_ok hq, lift_ok h1, Except.ok_bind', e1, e2]; rfl, k⟩
  | delete c r =>
    cases c with
    | none => cases e; exact ⟨b, h, rfl, same⟩
    | some c =>
      obtain ⟨g', h1, h2⟩ := insert_safe (S := S) (A := A) hr c r.start
      simp only [Buf.reverseOp, h1, Except.ok_bind'] at e
      cases e
      obtain ⟨h', e1, b', e2, k⟩ := put_good i w h2 r.start
      exact ⟨b', h', by simp only [HBuf.reverseOp, get_of_gapAt w.data, lift_ok h1, Except.ok_bind', e1, e2]; rfl, k⟩
  | replace o n =>
    obtain ⟨b', h', e1, k, _⟩ := replaceContent_good i w e
    exact ⟨b', h', e1, k⟩

theorem runAll_good (ops : List SOp) {h : Store} {L : List Ref} {b : HBuf} {v v' : Buf} (i : Inv h (own b ++ L)) (w : View h b v) (ho : ∀ op ∈ ops, op.Ordered)
    (e : Buf.runAll S A v ops = .ok v') : ∃ b' h', HBuf.runAll S A h b ops = .ok (b', h') ∧ Good L h b h' b' v' := by
  induction ops generalizing h b v with
  | nil => cases e; exact ⟨b, h, rfl, i, w, rfl, id, fun _ _ _ => rfl, Or.inl rfl⟩
  | cons op ops ih =>
    obtain ⟨v1, o1, h1, _, _⟩ := runOp_safe (S := S) (A := A) (w.rep i) op (ho op (by simp))
    simp only [Buf.runAll, h1, Except.ok_bind'] at e
    obtain ⟨b1, hh1, e1, k1⟩ := runOp_good i w (ho op (by simp)) h1
    obtain ⟨b2, hh2, e2, k2⟩ := ih k1.inv k1.view (fun x hx => ho x (by simp [hx])) e
    exact ⟨b2, hh2, by simp only [HBuf.runAll, e1, Except.ok_bind', e2], k1.trans k2⟩

theorem reverseAll_good (ops : List SOp) {h : Store} {L : List Ref} {b : HBuf} {v v' : Buf} (i : Inv h (own b ++ L)) (w : View h b v)
    (e : Buf.reverseAll S A v ops = .ok v') : ∃ b' h', HBuf.reverseAll S A h b ops = .ok (b', h') ∧ Good L h b h' b' v' := by
  induction ops generalizing h b v with
  | nil => cases e; exact ⟨b, h, rfl, i, w, rfl, id, fun _ _ _ => rfl, Or.inl rfl⟩
  | cons op ops ih =>
    obtain ⟨v1, h1, _⟩ := reverseOp_safe (S := S) (A := A) (w.rep i) op
    simp only [Buf.reverseAll, h1, Except.ok_bind'] at e
    obtain ⟨b1, hh1, e1, k1⟩ := reverseOp_good i w h1
    obtain ⟨b2, hh2, e2, k2⟩ := ih k1.inv k1.view e
    exact ⟨b2, hh2, by simp only [HBuf.reverseAll, e1, Except.ok_bind', e2], k1.trans k2⟩

theorem runAny_good {h : Store} {L : List Ref} {b : HBuf} {v v' : Buf} (i : Inv h (own b ++ L)) (w : View h b v) {op : Op} (ho : op.Ordered)
    (e : Buf.runAny S A v op = .ok v') : ∃ b' h', HBuf.runAny S A h b op = .ok (b', h') ∧ Good L h b h' b' v' := by
  cases op with
  | simple op =>
    obtain ⟨v1, o1, h1, _, _⟩ := runOp_safe (S := S) (A := A) (w.rep i) op ho
    simp only [Buf.runAny, h1, Except.ok_bind'] at e
    cases e
    obtain ⟨b1, hh1, e1, k1⟩ := runOp_good i w ho h1
    exact ⟨b1, hh1, by simp only [HBuf.runAny, e1, Except.ok_bind']; rfl, k1⟩
  | group ops => exact runAll_good ops i w ho e

theorem reverseAny_good {h : Store} {L : List Ref} {b : HBuf} {v v' : Buf} (i : Inv h (own b ++ L)) (w : View h b v) {op : Op}
    (e : Buf.reverseAny S A v op = .ok v') : ∃ b' h', HBuf.reverseAny S A h b op = .ok (b', h') ∧ Good L h b h' b' v' := by
  cases op with
  | simple op => exact reverseOp_good i w e
  | group ops => exact reverseAll_good ops.reverse i w e

/-- A change of history, group or mark only. -/
theorem Good.same {h : Store} {L : List Ref} {b b' : HBuf} {v' : Buf} (i : Inv h (own b ++ L)) (w : View h b' v') (hd : b'.data = b.data)
    (hc : b'.cursor.data = b.cursor.data) (hk : b'.callback = b.callback) : Good L h b h b' v' :=
  ⟨by simpa only [own, hd, hc, hk] using i, w, hk, fun e => by rw [hc, hd, e], fun _ _ _ => rfl, Or.inl hd⟩

theorem store_good {h : Store} {L : List Ref} {b : HBuf} {v : Buf} (i : Inv h (own b ++ L)) (w : View h b v) (op : SOp) :
    Good L h b h (b.store op) (v.store op) := by
  unfold HBuf.store Buf.store
  rw [w.group]
  cases hb : b.group with
  | none => exact Good.same i ⟨w.data, w.cursor, by simp only [w.history], rfl, w.callback, w.log⟩ rfl rfl rfl
  | some ops => exact Good.same i ⟨w.data, w.cursor, w.history, rfl, w.callback, w.log⟩ rfl rfl rfl

theorem edit_good {h : Store} {L : List Ref} {b : HBuf} {v v' : Buf} (i : Inv h (own b ++ L)) (w : View h b v) {op : SOp} (ho : op.Ordered)
    (e : (Buf.runOp S A v op >>= fun r => (pure (r.1.store r.2) : R Buf)) = .ok v') :
    ∃ b' h', HBuf.edit S A h b op = .ok (b', h') ∧ Good L h b h' b' v' := by
  obtain ⟨v1, o1, h1, _, _⟩ := runOp_safe (S := S) (A := A) (w.rep i) op ho
  simp only [h1, Except.ok_bind'] at e
  cases e
  obtain ⟨b1, hh1, e1, k1⟩ := runOp_good i w ho h1
  exact ⟨b1.store o1, hh1, by simp only [HBuf.edit, e1, Except.ok_bind']; rfl, k1.trans (store_good k1.inv k1.view o1)⟩

theorem replace_good {h : Store} {L : List Ref} {b : HBuf} {v v' : Buf} (i : Inv h (own b ++ L)) (w : View h b v) {t : Text}
    (e : Buf.replace S A v t = .ok v') : ∃ b' h', HBuf.replace S A h b t = .ok (b', h') ∧ Good L h b h' b' v' := by
  obtain ⟨pre, post, hr⟩ := w.rep i
  have hs := hr.toStr
  unfold Buf.replace at e
  unfold HBuf.replace
  rw [hs, Except.ok_bind'] at e
  simp only [get_of_gapAt w.data, lift_ok hs, Except.ok_bind']
  split at e
  · rename_i hc
    cases e
    exact ⟨b, h, by rw [if_pos hc]; rfl, Good.same i w rfl rfl rfl⟩
  · rename_i hc
    rw [if_neg hc]
    exact edit_good i w trivial e

theorem pop_good {h : Store} {L : List Ref} {b : HBuf} {v v' : Buf} (i : Inv h (own b ++ L)) (w : View h b v)
    (e : (match v.history.back.1 with
      | some op => Buf.reverseAny S A { v with history := v.history.back.2 } op
      | none => pure { v with history := v.history.back.2 }) = .ok v') :
    ∃ b' h', HBuf.pop S A h b = .ok (b', h') ∧ Good L h b h' b' v' := by
  unfold HBuf.pop
  rw [w.history] at e
  have w1 : View h { b with history := b.history.back.2 } { v with history := b.history.back.2 } := ⟨w.data, w.cursor, rfl, w.group, w.callback, w.log⟩
  have k1 : Good L h b h { b with history := b.history.back.2 } _ := Good.same i w1 rfl rfl rfl
  cases hb : b.history.back.1 with
  | none =>
    rw [hb] at e
    cases e
    exact ⟨_, h, by simp only [hb], k1⟩
  | some op =>
    rw [hb] at e
    obtain ⟨b2, h2, e2, k2⟩ := reverseAny_good k1.inv w1 e
    exact ⟨b2, h2, by simp only [hb, e2], k1.trans k2⟩

/-- The calls that have nothing to do with the pointer of the cursor, or with that of the callback. -/
theorem exec_good {h : Store} {L : List Ref} {b : HBuf} {v v' : Buf} (i : Inv h (own b ++ L)) (w : View h b v) (hs : Sane v) {c : Buf.Cmd}
    (hm : ∀ m, c = .move m → b.cursor.data = b.data) (hk : ∀ x, c ≠ .setCallback x)
    (e : Buf.exec S A v c = .ok v') : ∃ b' h', HBuf.exec S A h b c = .ok (b', h') ∧ Good L h b h' b' v' := by
  cases c with
  | insert s =>
    rw [Buf.exec, Buf.insert, w.cursor] at e
    exact edit_good i w trivial e
  | delete =>
    obtain ⟨pre, post, hr⟩ := w.rep i
    have hb := fun p => GapBuffer.inBounds_rep (S := S) hr (p := p)
    simp only [Buf.exec, Buf.delete, hb, Except.ok_bind', w.cursor] at e
    simp only [HBuf.exec, HBuf.delete, get_of_gapAt w.data, lift_ok (hb _), Except.ok_bind']
    exact edit_good i w (range_new_ok _ _) e
  | deleteRange p q => exact edit_good i w (range_new_ok p q) e
  | replace t => exact replace_good i w e
  | undo =>
    simp only [Buf.exec, Buf.undo] at e
    simp only [HBuf.exec, HBuf.undo]
    rw [w.group] at e
    have w1 : View h { b with group := none } { v with group := none } := ⟨w.data, w.cursor, w.history, rfl, w.callback, w.log⟩
    have k1 : Good L h b h { b with group := none } _ := Good.same i w1 rfl rfl rfl
    cases hg : b.group with
    | none =>
      rw [hg] at e
      obtain ⟨b2, h2, e2, k2⟩ := pop_good (S := S) (A := A) k1.inv w1 e
      exact ⟨b2, h2, e2, k1.trans k2⟩
    | some ops =>
      rw [hg] at e
      simp only at e ⊢
      split at e
      · rename_i ho
        rw [if_pos ho]
        obtain ⟨b2, h2, e2, k2⟩ := pop_good (S := S) (A := A) k1.inv w1 e
        exact ⟨b2, h2, e2, k1.trans k2⟩
      · rename_i ho
        rw [if_neg ho]
        obtain ⟨b2, h2, e2, k2⟩ := reverseAny_good (S := S) (A := A) k1.inv w1 e
        exact ⟨b2, h2, e2, k1.trans k2⟩
  | redo =>
    simp only [Buf.exec, Buf.redo] at e
    simp only [HBuf.exec, HBuf.redo]
    have hn := hs.next
    rw [w.history] at e hn
    have w1 : View h { b with history := b.history.forth.2 } { v with history := b.history.forth.2 } := ⟨w.data, w.cursor, rfl, w.group, w.callback, w.log⟩
    have k1 : Good L h b h { b with history := b.history.forth.2 } _ := Good.same i w1 rfl rfl rfl
    cases hb : b.history.forth.1 with
    | none =>
      rw [hb] at e
      cases e
      exact ⟨_, h, rfl, k1⟩
    | some op =>
      rw [hb] at e
      have ho : op.Ordered := hn op (by
        unfold History.forth at hb
        split at hb
        · rename_i h1; cases hb; rw [h1]; simp
        · cases hb)
      obtain ⟨b2, h2, e2, k2⟩ := runAny_good k1.inv w1 ho e
      exact ⟨b2, h2, e2, k1.trans k2⟩
  | startGroup =>
    cases e
    refine ⟨_, h, rfl, ?_⟩
    unfold HBuf.startGroup Buf.startGroup
    rw [w.group]
    cases hb : b.group with
    | none => exact Good.same i ⟨w.data, w.cursor, w.history, rfl, w.callback, w.log⟩ rfl rfl rfl
    | some ops => exact Good.same i w rfl rfl rfl
  | endGroup =>
    cases e
    refine ⟨_, h, rfl, ?_⟩
    unfold HBuf.endGroup Buf.endGroup
    rw [w.group]
    cases hb : b.group with
    | none => exact Good.same i w rfl rfl rfl
    | some ops =>
      dsimp only
      split
      · exact Good.same i ⟨w.data, w.cursor, w.history, rfl, w.callback, w.log⟩ rfl rfl rfl
      · exact Good.same i ⟨w.data, w.cursor, by simp only [w.history], rfl, w.callback, w.log⟩ rfl rfl rfl
  | move m =>
    obtain ⟨pre, post, hr⟩ := w.rep i
    obtain ⟨c', h1, _⟩ := Cursor.move_rep (S := S) hr v.cursor m
    simp only [Buf.exec, h1, Except.ok_bind'] at e
    cases e
    rw [w.cursor] at h1
    refine ⟨{ b with cursor := { b.cursor with at_ := c' } }, h, ?_, Good.same i ⟨w.data, rfl, w.history, w.group, w.callback, w.log⟩ rfl rfl rfl⟩
    simp only [HBuf.exec, hm m rfl, get_of_gapAt w.data, lift_ok h1, Except.ok_bind']
    rfl
  | setCursor p =>
    cases e
    exact ⟨_, h, rfl, Good.same i ⟨w.data, by rw [← w.cursor], w.history, w.group, w.callback, w.log⟩ rfl rfl rfl⟩
  | setCallback x => exact absurd rfl (hk x)
  | saved =>
    cases e
    exact ⟨_, h, rfl, Good.same i ⟨w.data, w.cursor, by simp only [Buf.setMark, w.history], w.group, w.callback, w.log⟩ rfl rfl rfl⟩
  | reload t =>
    obtain ⟨v1, h1, _⟩ := replace_safe (S := S) (A := A) hs t
    simp only [Buf.exec, Buf.reloadWith, h1, Except.ok_bind'] at e
    cases e
    obtain ⟨b2, h2, e2, k2⟩ := replace_good i w h1
    refine ⟨{ b2 with history := b2.history.setMark }, h2, by simp only [HBuf.exec, e2, Except.ok_bind']; rfl, k2.trans (Good.same k2.inv ?_ rfl rfl rfl)⟩
    exact ⟨k2.view.data, k2.view.cursor, by simp only [Buf.setMark, k2.view.history], k2.view.group, k2.view.callback, k2.view.log⟩

/-! ## Programs -/

/-- What is stored in a buffer for undo is in order. -/
structure HSane (b : HBuf) : Prop where
  previous : ∀ op ∈ b.history.previous, op.Ordered
  next : ∀ op ∈ b.history.next, op.Ordered
  group : ∀ ops, b.group = some ops → ∀ op ∈ ops, op.Ordered

theorem view_of {h : Store} {b : HBuf} {v : Buf} (e : plain h b = some v) : View h b v := by
  unfold plain at e
  cases hg : gapAt h b.data with
  | none => rw [hg] at e; cases e
  | some g => rw [hg] at e; cases e; exact ⟨hg, rfl, rfl, rfl, rfl, rfl⟩

theorem View.plain {h : Store} {b : HBuf} {v : Buf} (w : View h b v) : plain h b = some v := by
  obtain ⟨h1, h2, h3, h4, h5, h6⟩ := w
  cases v
  unfold Heap.plain
  rw [h1]
  simp_all

theorem View.exists {h : Store} {L : List Ref} {b : HBuf} (i : Inv h (own b ++ L)) : ∃ v, View h b v := by
  obtain ⟨g, e, _⟩ := i.gap (p := b.data) (by simp [own])
  exact ⟨⟨g, b.cursor.at_, b.history, b.group, b.callback.isSome, b.log⟩, e, rfl, rfl, rfl, rfl, rfl⟩

theorem View.sane {h : Store} {L : List Ref} {b : HBuf} {v : Buf} (i : Inv h (own b ++ L)) (w : View h b v) (s : HSane b) : Sane v :=
  ⟨w.rep i, by rw [w.history]; exact s.previous, by rw [w.history]; exact s.next, by rw [w.group]; exact s.group⟩

theorem View.hsane {h : Store} {b : HBuf} {v : Buf} (w : View h b v) (s : Sane v) : HSane b :=
  ⟨by rw [← w.history]; exact s.previous, by rw [← w.history]; exact s.next, by rw [← w.group]; exact s.group⟩

theorem setCallback_ok {h : Store} {L ps : List Ref} {b : HBuf} (i : Inv h (own b ++ (ps ++ L))) (f : Option (List Ref)) (hf : f.getD [] = ps) :
    ∃ h', rcDrops h (b.callback.getD []) = .ok h' ∧ Inv h' (own { b with callback := f } ++ L) ∧
      ∀ q ∈ own { b with callback := f } ++ L, gapAt h' q = gapAt h q := by
  have i' : Inv h (b.callback.getD [] ++ (own { b with callback := f } ++ L)) := i.of_count fun q => by
    simp only [own, hf, List.cons_append, List.count_cons, List.count_append]; omega
  exact i'.drops

/-- Every call. -/
theorem exec_ok {h : Store} {L : List Ref} {b : HBuf} (i : Inv h (own b ++ L)) (s : HSane b) (c : Buf.Cmd) :
    ∃ b' h', HBuf.exec S A h b c = .ok (b', h') ∧ Inv h' (own b' ++ L) ∧ HSane b' ∧
      (b.cursor.data = b.data → b'.cursor.data = b'.data) ∧ (b.callback.getD [] = [] → b'.callback.getD [] = []) ∧ (b'.data = b.data ∨ b'.data ∉ L) := by
  obtain ⟨v, w⟩ := View.exists i
  have hv := w.sane i s
  by_cases hk : ∃ x, c = .setCallback x
  · obtain ⟨x, rfl⟩ := hk
    obtain ⟨h', e, i', _⟩ := setCallback_ok (ps := []) i (if x then some [] else none) (by cases x <;> rfl)
    refine ⟨_, h', by simp only [HBuf.exec, e, Except.ok_bind']; rfl, i', ⟨s.previous, s.next, s.group⟩, id, fun _ => by cases x <;> rfl, Or.inl rfl⟩
  · by_cases hm : ∃ m, c = .move m
    · obtain ⟨m, rfl⟩ := hm
      obtain ⟨g, _, e, pre, post, hr⟩ := i.gap (p := b.cursor.data) (by simp [own])
      obtain ⟨c', h1, _⟩ := Cursor.move_rep (S := S) hr b.cursor.at_ m
      exact ⟨{ b with cursor := { b.cursor with at_ := c' } }, h, by simp only [HBuf.exec, e, lift_ok h1, Except.ok_bind']; rfl, i,
        ⟨s.previous, s.next, s.group⟩, id, id, Or.inl rfl⟩
    · obtain ⟨v', e, hv'⟩ := exec_safe (S := S) (A := A) hv c
      obtain ⟨b', h', e', k⟩ := exec_good i w hv (fun m hc => absurd ⟨m, hc⟩ hm) (fun x hc => hk ⟨x, hc⟩) e
      exact ⟨b', h', e', k.inv, k.view.hsane hv', k.keeps, fun hc => by rw [k.callback]; exact hc, k.moved⟩

theorem new_ok {h : Store} {L : List Ref} (i : Inv h L) (g : GapBuffer) (hg : ∃ pre post, Rep g pre post) :
    ∃ h1 h2 h3, rcClone (rcNew h g).2 h.length = .ok h1 ∧ rcClone h1 h.length = .ok h2 ∧ rcDrop h2 h.length = .ok h3 ∧
      Inv h3 (h.length :: h.length :: L) ∧ (∀ q ∈ L, gapAt h3 q = gapAt h q) ∧ gapAt h3 h.length = some g := by
  obtain ⟨i0, g0, n0⟩ := i.new hg
  have hp : (rcNew h g).1 = h.length := rfl
  rw [hp] at i0 n0
  obtain ⟨h1, e1, i1, g1⟩ := i0.clone (p := h.length) (by simp)
  obtain ⟨h2, e2, i2, g2⟩ := i1.clone (p := h.length) (by simp)
  obtain ⟨h3, e3, i3, g3⟩ := i2.drop
  exact ⟨h1, h2, h3, e1, e2, e3, i3, fun q hq => (((g3 q (by simp [hq])).trans (g2 q)).trans (g1 q)).trans (g0 q hq),
    (((g3 _ (by simp)).trans (g2 _)).trans (g1 _)).trans n0⟩

structure Ok (o : Owners) : Prop where
  inv : Inv o.store (holders o)
  sane : ∀ b ∈ o.buffers, HSane b

theorem pick_perm {α : Type} {l : List α} {i : Nat} {a : α} (e : l[i]? = some a) : l.Perm (a :: l.eraseIdx i) := by
  obtain ⟨hi, rfl⟩ := List.getElem?_eq_some_iff.mp e
  exact (List.getElem_cons_eraseIdx_perm hi).symm

theorem set_perm {α : Type} {l : List α} {i : Nat} {a : α} (e : l[i]? = some a) (x : α) : (l.set i x).Perm (x :: l.eraseIdx i) :=
  List.set_perm_cons_eraseIdx (List.getElem?_eq_some_iff.mp e).1 x

theorem count_pick {l : List HBuf} {i : Nat} {b : HBuf} (e : l[i]? = some b) (q : Ref) :
    (l.flatMap own).count q = (own b).count q + ((l.eraseIdx i).flatMap own).count q := by
  rw [((pick_perm e).flatMap_right own).count_eq]
  simp

end Scribe.Heap
