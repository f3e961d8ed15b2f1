import Verif.Model.Cost
import Verif.Spec.Cost
import Verif.Proofs.Zipper
/-! # The counter -/
namespace Scribe.GapBuffer
open Spec
variable {S : Segmenter} {A : Alloc}

theorem shiftLeftC_eq (o gl n : Nat) : ∀ (d : Bytes) (cost : Nat), shiftLeftC o gl n d cost = (shiftLeft o gl n d).map (·, cost + n) := by
  induction n with
  | zero => intro d cost; rfl
  | succ n ih =>
    intro d cost
    simp only [shiftLeftC, shiftLeft]
    cases getAt d (o + n) with
    | error e => rfl
    | ok x =>
      simp only [Except.ok_bind']
      cases setAt d (o + n + gl) x with
      | error e => rfl
      | ok d1 =>
        simp only [Except.ok_bind']
        cases setAt d1 (o + n) 0 with
        | error e => rfl
        | ok d2 =>
          simp only [Except.ok_bind', ih]
          rw [show cost + 1 + n = cost + (n + 1) by omega]

theorem shiftRightC_eq (gl n : Nat) : ∀ (i : Nat) (d : Bytes) (cost : Nat), shiftRightC gl n i d cost = (shiftRight gl n i d).map (·, cost + n) := by
  induction n with
  | zero => intro i d cost; rfl
  | succ n ih =>
    intro i d cost
    simp only [shiftRightC, shiftRight]
    cases getAt d i with
    | error e => rfl
    | ok x =>
      simp only [Except.ok_bind']
      cases subU i gl with
      | error e => rfl
      | ok j =>
        simp only [Except.ok_bind']
        cases setAt d j x with
        | error e => rfl
        | ok d1 =>
          simp only [Except.ok_bind']
          cases setAt d1 i 0 with
          | error e => rfl
          | ok d2 =>
            simp only [Except.ok_bind', ih]
            rw [show cost + 1 + n = cost + (n + 1) by omega]

/-- The number of iterations. -/
def moveCost (g : GapBuffer) (offset : Nat) : Nat :=
  if g.gapLength = 0 then 0 else if offset < g.gapStart then g.gapStart - offset else offset - (g.gapStart + g.gapLength)

theorem moveGapC_eq (g : GapBuffer) (o cost : Nat) : moveGapC g o cost = (moveGap g o).map (·, cost + moveCost g o) := by
  unfold moveGapC moveGap moveCost
  split
  · rfl
  · split
    · rw [shiftLeftC_eq]
      cases shiftLeft o g.gapLength (g.gapStart - o) g.data <;> rfl
    · split
      · rw [shiftRightC_eq]
        cases shiftRight g.gapLength (o - (g.gapStart + g.gapLength)) (g.gapStart + g.gapLength) g.data with
        | error e => rfl
        | ok d => 
          simp only [Except.map, Except.ok_bind']
          cases subU o g.gapLength <;> rfl
      · rw [show o - (g.gapStart + g.gapLength) = 0 by omega]
        rfl

theorem writeToGapC_eq (bs : Bytes) : ∀ (g : GapBuffer) (cost : Nat), writeToGapC bs g cost = (writeToGap bs g).map (·, cost + bs.length) := by
  induction bs with
  | nil => intro g cost; rfl
  | cons b bs ih =>
    intro g cost
    simp only [writeToGapC, writeToGap]
    cases setAt g.data g.gapStart b with
    | error e => rfl
    | ok d =>
      simp only [Except.ok_bind']
      cases subU g.gapLength 1 with
      | error e => rfl
      | ok gl =>
        simp only [Except.ok_bind', ih, List.length_cons]
        rw [show cost + 1 + bs.length = cost + (bs.length + 1) by omega]

/-- What a reallocation copies. -/
def growCost (g : GapBuffer) (n : Nat) : Nat := if n > g.gapLength then moveCost g g.data.length + g.data.length else 0

theorem growC_eq (g : GapBuffer) (n cost : Nat) : growC A g n cost = (grow A g n).map (·, cost + growCost g n) := by
  unfold growC grow growCost
  split
  · rw [moveGapC_eq]
    cases h : moveGap g g.data.length with
    | error e => rfl
    | ok g1 =>
      simp only [Except.map, Except.ok_bind', (moveGap_size h).1, Nat.add_assoc]
      cases subU (g1.data ++ A.get g1.clock g.data.length n).length g1.gapStart <;> rfl
  · rfl

theorem parts_blen {pre post : Text} {a b : List Text} (hab : S.segs pre ++ S.segs post = a ++ b) :
    blen a.flatten + blen b.flatten = blen pre + blen post := by
  have := congrArg (fun x => blen x.flatten) hab
  simp only [List.flatten_append, S.join, blen_append] at this
  exact this.symm

theorem moveCost_le {g pre post a b} (h : Rep g pre post) (hab : S.segs pre ++ S.segs post = a ++ b) :
    moveCost g (rawOff S g pre a) ≤ blen pre + blen post := by
  have h1 := parts_blen hab
  have h2 := h.start
  unfold moveCost rawOff
  split
  · omega
  · split <;> split <;> omega

theorem moveCost_here {g pre post} (h : Rep g pre post) : moveCost g (rawOff S g pre (S.segs pre)) = 0 := by
  have e : rawOff S g pre (S.segs pre) = g.gapStart + g.gapLength := by
    have := rawOff_right (S := S) (c := []) h
    simpa using this
  unfold moveCost
  rw [e]
  split
  · rfl
  · rw [if_neg (by omega)]; omega

theorem moveCost_end {g pre post} (h : Rep g pre post) : moveCost g g.data.length ≤ blen post := by
  have h1 := h.length
  unfold moveCost
  split
  · omega
  · split <;> omega

/-- What an insertion copies. -/
theorem insertC_ok {g pre post} (h : Rep g pre post) (s : Text) (p : Position) (cost : Nat) :
    ∃ g' n, insert S A g s p = .ok g' ∧ insertC S A g s p cost = .ok (g', cost + n) ∧
      (blen s ≤ g.gapLength → n ≤ blen pre + blen post + blen s) ∧ (blen s ≤ g.gapLength → p = endPos (S.segs pre) → n = blen s) ∧
      (g.gapLength < blen s → n ≤ 3 * g.data.length + blen s) := by
  have hlen := h.length
  have hst := h.start
  obtain ⟨g1, hg1, hle, hcase⟩ := grow_rep (A := A) h (blen s)
  have key : ∃ pre' post', Rep g1 pre' post' ∧ blen pre' + blen post' = blen pre + blen post ∧
      (blen s ≤ g.gapLength → pre' = pre ∧ growCost g (blen s) = 0) ∧ (g.gapLength < blen s → growCost g (blen s) ≤ 2 * g.data.length) := by
    unfold growCost
    rcases hcase with ⟨hc, rfl⟩ | ⟨hc, hr⟩
    · exact ⟨pre, post, h, rfl, fun _ => ⟨rfl, by rw [if_neg (by omega)]⟩, fun _ => by omega⟩
    · refine ⟨_, _, hr, by simp [blen_append], fun _ => by omega, fun _ => ?_⟩
      have := moveCost_end h
      rw [if_pos hc]
      omega
  obtain ⟨pre', post', hr, hb, hfit, hgrow⟩ := key
  unfold insert insertC
  rw [growC_eq, hg1]
  simp only [Except.map, Except.ok_bind']
  rw [findOffset_eq hr p]
  simp only [Except.ok_bind']
  cases hl : locate (S.segs pre' ++ S.segs post') p with
  | none =>
    refine ⟨g1, growCost g (blen s), rfl, rfl, fun hf => by have := (hfit hf).2; omega, ?_, fun hf => by have := hgrow hf; omega⟩
    intro hf hp
    rw [(hfit hf).1, hp, locate_append] at hl
    cases hl
  | some x =>
    obtain ⟨a, b⟩ := x
    obtain ⟨hab, hp⟩ := locate_eq_some.mp hl
    obtain ⟨g2, hm, hr2⟩ := moveGap_to hr hab
    obtain ⟨g3, hw, hr3, _⟩ := writeToGap_rep hr2.rep s (by rw [hr2.gap]; exact hle)
    have hmc := moveCost_le hr hab
    refine ⟨g3, growCost g (blen s) + moveCost g1 (rawOff S g1 pre' a) + blen s, ?_, ?_, ?_, ?_, ?_⟩
    · simp only [Option.map_some, hm, Except.ok_bind', hw]
    · simp only [Option.map_some, moveGapC_eq, hm, Except.map, Except.ok_bind', writeToGapC_eq, hw]
      rw [show cost + growCost g (blen s) + moveCost g1 (rawOff S g1 pre' a) + (enc s).length =
        cost + (growCost g (blen s) + moveCost g1 (rawOff S g1 pre' a) + blen s) by unfold blen; omega]
    · intro hf
      have := (hfit hf).2
      omega
    · intro hf hpe
      obtain ⟨e1, e2⟩ := hfit hf
      subst e1
      rw [hpe, locate_append] at hl
      cases hl
      rw [e2, moveCost_here hr]
      omega
    · intro hf
      have := hgrow hf
      omega

/-- What a deletion copies. -/
theorem deleteC_ok {g pre post} (h : Rep g pre post) (r : Range) (hr : AtOrBefore r.start r.stop) (cost : Nat) :
    ∃ g' n, delete S g r = .ok g' ∧ deleteC S g r cost = .ok (g', cost + n) ∧ n ≤ blen pre + blen post ∧
      n = (match locate (S.segs pre ++ S.segs post) r.start with | none => 0 | some (a, _) => moveCost g (rawOff S g pre a)) := by
  obtain ⟨g', hd, _⟩ := delete_rep h r hr
  unfold delete at hd
  unfold delete deleteC
  rw [findOffset_eq h] at hd ⊢
  simp only [Except.ok_bind'] at hd ⊢
  cases hl : locate (S.segs pre ++ S.segs post) r.start with
  | none =>
    rw [hl] at hd
    cases hd
    exact ⟨g, 0, rfl, rfl, Nat.zero_le _, rfl⟩
  | some x =>
    obtain ⟨a, b⟩ := x
    obtain ⟨hab, hp⟩ := locate_eq_some.mp hl
    obtain ⟨g2, hm, hr2⟩ := moveGap_to h hab
    have hmc := moveCost_le h hab
    rw [hl] at hd
    simp only [Option.map_some, hm, Except.ok_bind', moveGapC_eq, Except.map] at hd ⊢
    refine ⟨g', moveCost g (rawOff S g pre a), hd, ?_, hmc, rfl⟩
    cases h1 : findOffset S g2 r.stop with
    | error e => rw [h1] at hd; cases hd
    | ok o =>
      rw [h1] at hd
      simp only [Except.ok_bind'] at hd ⊢
      cases o with
      | some eo =>
        simp only at hd ⊢
        cases h2 : subU eo g2.gapStart with
        | error e => rw [h2] at hd; cases hd
        | ok gl => rw [h2] at hd; cases hd; rfl
      | none =>
        simp only at hd ⊢
        cases h3 : findOffset S g2 ⟨r.stop.line + 1, 0⟩ with
        | error e => rw [h3] at hd; cases hd
        | ok o =>
          rw [h3] at hd
          simp only [Except.ok_bind'] at hd ⊢
          cases o with
          | some eo =>
            simp only at hd ⊢
            cases h2 : subU eo g2.gapStart with
            | error e => rw [h2] at hd; cases hd
            | ok gl => rw [h2] at hd; cases hd; rfl
          | none =>
            simp only at hd ⊢
            cases h2 : subU g2.data.length g2.gapStart with
            | error e => rw [h2] at hd; cases hd
            | ok gl => rw [h2] at hd; cases hd; rfl

/-- What a call copies. -/
theorem callC_ok {g pre post} (h : Rep g pre post) (c : Call) (cost : Nat) :
    ∃ o g' n, call S A g c = .ok (o, g') ∧ callC S A g cost c = .ok (o, g', cost + n) ∧
      (demand c ≤ g.gapLength → n ≤ blen pre + blen post + demand c) ∧
      (demand c ≤ g.gapLength → ∀ s, c = .insert s (endPos (S.segs pre)) → n = demand c) ∧
      (g.gapLength < demand c → n ≤ 3 * g.data.length + demand c) := by
  cases c with
  | insert s p =>
    obtain ⟨g', n, h1, h2, h3, h4, h5⟩ := insertC_ok (S := S) (A := A) h s p cost
    refine ⟨.done, g', n, by simp only [call, h1]; rfl, by simp only [callC, h2]; rfl, h3, ?_, h5⟩
    intro hf s' hs
    cases hs
    exact h4 hf rfl
  | delete p q =>
    obtain ⟨g', n, h1, h2, h3, _⟩ := deleteC_ok (S := S) h (Range.new p q) (by rw [(lo_hi p q).1, (lo_hi p q).2]; exact lo_le_hi p q) cost
    refine ⟨.done, g', n, by simp only [call, h1]; rfl, by simp only [callC, h2]; rfl, fun _ => (by unfold demand; omega), fun _ s hs => (by cases hs), ?_⟩
    intro hf
    simp [demand] at hf
  | read p q =>
    obtain ⟨o, g', pre', post', h1, _⟩ := call_rep (S := S) (A := A) h (.read p q)
    obtain ⟨x, hx, hy⟩ := bind_ok h1
    cases hy
    exact ⟨_, g, 0, h1, by simp only [callC, hx]; rfl, fun _ => Nat.zero_le _, fun _ s hs => (by cases hs), fun _ => Nat.zero_le _⟩
  | inBounds p =>
    obtain ⟨o, g', pre', post', h1, _⟩ := call_rep (S := S) (A := A) h (.inBounds p)
    obtain ⟨x, hx, hy⟩ := bind_ok h1
    cases hy
    exact ⟨_, g, 0, h1, by simp only [callC, hx]; rfl, fun _ => Nat.zero_le _, fun _ s hs => (by cases hs), fun _ => Nat.zero_le _⟩
  | toStr =>
    obtain ⟨o, g', pre', post', h1, _⟩ := call_rep (S := S) (A := A) h .toStr
    obtain ⟨x, hx, hy⟩ := bind_ok h1
    cases hy
    exact ⟨_, g, 0, h1, by simp only [callC, hx]; rfl, fun _ => Nat.zero_le _, fun _ s hs => (by cases hs), fun _ => Nat.zero_le _⟩

/-- Exactly how many bytes a movement of the gap copies. -/
theorem moveCost_eq {g z a b} (h : Zips g z) (hab : S.segs z.left ++ S.segs z.right = a ++ b) :
    moveCost g (rawOff S g z.left a) = z.travel a.flatten := by
  have h1 := h.rep.start
  have h2 := h.room
  unfold moveCost rawOff Zip.travel apart
  rw [← h2]
  by_cases hg : g.gapLength = 0
  · rw [if_pos hg, if_pos hg]
  rw [if_neg hg, if_neg hg]
  rcases List.append_eq_append_iff.mp hab with ⟨c, e1, e2⟩ | ⟨c, e1, e2⟩
  · have : blen a.flatten = blen z.left + blen c.flatten := by rw [e1, List.flatten_append, S.join, blen_append]
    have hlt : ¬ a.length < (S.segs z.left).length := by rw [e1, List.length_append]; omega
    rw [if_neg hlt, if_neg (by omega)]
    omega
  · have : blen z.left = blen a.flatten + blen c.flatten := by rw [← blen_append, ← List.flatten_append, ← e1, S.join]
    have hlen : (S.segs z.left).length = a.length + c.length := by rw [e1, List.length_append]
    by_cases hc : c = []
    · subst hc
      have : blen ([] : List Text).flatten = 0 := rfl
      have hlt : ¬ a.length < (S.segs z.left).length := by simp at hlen; omega
      rw [if_neg hlt, if_neg (by omega)]
      omega
    · have := List.length_pos_iff.mpr hc
      have hlt : a.length < (S.segs z.left).length := by omega
      rw [if_pos hlt]
      split <;> omega

theorem moveCost_end_eq {g z} (h : Zips g z) : moveCost g g.data.length = z.travel (z.left ++ z.right) := by
  have h0 := h.rep.length
  have h1 := h.rep.start
  have h2 := h.room
  unfold moveCost Zip.travel apart
  rw [← h2, blen_append]
  split
  · rfl
  · rw [if_neg (by omega)]; omega

theorem grow_zips {g z} (h : Zips g z) (n : Nat) : ∃ g', grow A g n = .ok g' ∧ n ≤ g'.gapLength ∧ Zips g' (z.reserve A.grant n) := by
  obtain ⟨g1, h1, h2, h3⟩ := grow_rep (A := A) h.rep n
  obtain ⟨h4, h5⟩ := grow_size h1
  refine ⟨g1, h1, h2, ?_⟩
  rw [h.room] at h3 h4 h5
  rw [h.size, h.clock] at h4
  rw [h.clock] at h5
  unfold Zip.reserve
  rcases h3 with ⟨h3, rfl⟩ | ⟨h3, hr⟩
  · rw [if_pos h3]; exact h
  · rw [if_neg (by omega)] at h4 h5 ⊢
    exact ⟨hr, h4, h5⟩

/-- Exactly how many bytes a call copies. -/
theorem callC_exact {g z} (h : Zips g z) (c : Call) : ∃ o g', callC S A g 0 c = .ok (o, g', z.cost S.segs A.grant c) := by
  cases c with
  | insert s p =>
    obtain ⟨g1, hg1, hle, hz1⟩ := grow_zips (A := A) h (blen s)
    have hgc : growCost g (blen s) = (if blen s ≤ z.room then 0 else z.travel (z.left ++ z.right) + z.size) := by
      unfold growCost
      rw [h.room]
      by_cases hn : blen s ≤ z.room
      · rw [if_pos hn, if_neg (by omega)]
      · rw [if_neg hn, if_pos (by omega), moveCost_end_eq h, h.size]
    simp only [callC, insertC, growC_eq, hg1, Except.map, Except.ok_bind', findOffset_eq hz1.rep p, Zip.cost, Zip.clusters, Nat.zero_add]
    rw [← hgc]
    cases hl : locate (S.segs (z.reserve A.grant (blen s)).left ++ S.segs (z.reserve A.grant (blen s)).right) p with
    | none => exact ⟨.done, g1, rfl⟩
    | some x =>
      obtain ⟨a, b⟩ := x
      obtain ⟨hab, hp⟩ := locate_eq_some.mp hl
      obtain ⟨g2, hm, hr2⟩ := moveGap_to hz1.rep hab
      obtain ⟨g3, hw, hr3, _⟩ := writeToGap_rep hr2.rep s (by rw [hr2.gap]; exact hle)
      simp only [Option.map_some, moveGapC_eq, hm, Except.map, Except.ok_bind', writeToGapC_eq, hw, moveCost_eq hz1 hab]
      exact ⟨.done, g3, by rw [Nat.add_assoc]; rfl⟩
  | delete p q =>
    obtain ⟨g', n, h1, h2, _, h4⟩ := deleteC_ok (S := S) h.rep (Range.new p q) (by rw [(lo_hi p q).1, (lo_hi p q).2]; exact lo_le_hi p q) 0
    refine ⟨.done, g', ?_⟩
    simp only [callC, h2, Except.ok_bind', Zip.cost, Zip.clusters]
    rw [(lo_hi p q).1] at h4
    rw [h4, Nat.zero_add]
    cases hl : locate (S.segs z.left ++ S.segs z.right) (lo p q) with
    | none => rfl
    | some x => simp only [moveCost_eq h (locate_eq_some.mp (show _ = some (x.1, x.2) from hl)).1]; rfl
  | read p q =>
    obtain ⟨o, g', pre', post', h1, _⟩ := call_rep (S := S) (A := A) h.rep (.read p q)
    obtain ⟨x, hx, hy⟩ := bind_ok h1
    exact ⟨_, g, by simp only [callC, hx]; rfl⟩
  | inBounds p =>
    obtain ⟨o, g', pre', post', h1, _⟩ := call_rep (S := S) (A := A) h.rep (.inBounds p)
    obtain ⟨x, hx, hy⟩ := bind_ok h1
    exact ⟨_, g, by simp only [callC, hx]; rfl⟩
  | toStr =>
    obtain ⟨o, g', pre', post', h1, _⟩ := call_rep (S := S) (A := A) h.rep .toStr
    obtain ⟨x, hx, hy⟩ := bind_ok h1
    exact ⟨_, g, by simp only [callC, hx]; rfl⟩

/-- A sequence of calls with the counter. -/
theorem runC_ok {g pre post} (h : Rep g pre post) (cs : List Call) (cost : Nat) :
    ∃ os g' n, run S A g cs = .ok (os, g') ∧ runC S A g cost cs = .ok (os, g', cost + n) := by
  induction cs generalizing g pre post cost with
  | nil => exact ⟨[], g, 0, rfl, rfl⟩
  | cons c cs ih =>
    obtain ⟨o, g1, n, h1, h2, _⟩ := callC_ok (S := S) (A := A) h c cost
    obtain ⟨o', g1', pre', post', h3, hr, _⟩ := call_rep (S := S) (A := A) h c
    rw [h1] at h3
    cases h3
    obtain ⟨os, g2, m, h4, h5⟩ := ih hr (cost + n)
    refine ⟨o :: os, g2, n + m, ?_, ?_⟩
    · rw [run, h1]; simp only [Except.ok_bind', h4]; rfl
    · rw [runC, h2]; simp only [Except.ok_bind', h5]; rw [Nat.add_assoc]; rfl

/-- The bytes of a zipper. -/
def _root_.Scribe.Spec.Zip.used (z : Zip) : Nat := blen z.left + blen z.right

theorem reserve_used (z : Zip) (grant) (n : Nat) : (z.reserve grant n).used = z.used := by
  unfold Zip.reserve
  split
  · rfl
  · simp [Zip.used, blen_append]

/-- What a call does to the size of the block. -/
theorem zip_call_size (z : Zip) (grant) (c : Call) :
    ((z.call S.segs grant c).2.size = z.size ∧ (z.call S.segs grant c).2.clock = z.clock ∧ demand c ≤ z.room) ∨
    ((z.call S.segs grant c).2.size = z.size + grant z.clock z.size (demand c) ∧ (z.call S.segs grant c).2.clock = z.clock + 1 ∧
      z.room < demand c) := by
  cases c with
  | insert s p =>
    simp only [Zip.call, demand]
    by_cases hs : blen s ≤ z.room
    · left
      cases locate ((z.reserve grant (blen s)).clusters S.segs) p <;> simp [Zip.reserve, hs]
    · right
      cases locate ((z.reserve grant (blen s)).clusters S.segs) p <;> simp [Zip.reserve, hs] <;> omega
  | delete p q =>
    left
    simp only [Zip.call, demand]
    split <;> simp
  | read p q =>
    left
    simp only [Zip.call, demand]
    split <;> simp
  | inBounds p => left; simp [Zip.call, demand]
  | toStr => left; simp [Zip.call, demand]

/-- Typed text goes to the left of the gap. -/
theorem zip_typed (z : Zip) (grant) (s : Text) :
    (z.call S.segs grant (.insert s (endPos (S.segs z.left)))).2.used ≤ z.used + blen s := by
  simp only [Zip.call]
  have h0 := reserve_used z grant (blen s)
  cases hl : locate ((z.reserve grant (blen s)).clusters S.segs) (endPos (S.segs z.left)) with
  | none => simp only; omega
  | some x =>
    obtain ⟨a, b⟩ := x
    obtain ⟨hab, _⟩ := locate_eq_some.mp hl
    have := parts_blen hab
    simp only [Zip.used, blen_append] at h0 ⊢
    omega

end Scribe.GapBuffer
