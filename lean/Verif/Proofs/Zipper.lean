import Verif.Spec.Zipper
import Verif.Proofs.GapRun
/-!
# The gap buffer is a zipper
-/
namespace Scribe
open Spec
namespace GapBuffer
variable {S : Segmenter} {A : Alloc}

theorem setAt_length {α} {d d' : List α} {i x} (h : setAt d i x = .ok d') : d'.length = d.length := by
  unfold setAt at h
  split at h
  · cases h; simp
  · cases h

theorem bind_ok {ε α β} {x : Except ε α} {f : α → Except ε β} {b} (h : (x >>= f) = .ok b) :
    ∃ a, x = .ok a ∧ f a = .ok b := by
  cases x with
  | error e => cases h
  | ok a => exact ⟨a, rfl, h⟩

theorem shiftLeft_length {o gl n} {d d' : Bytes} (h : shiftLeft o gl n d = .ok d') : d'.length = d.length := by
  induction n generalizing d with
  | zero => cases h; rfl
  | succ n ih =>
    unfold shiftLeft at h
    obtain ⟨x, _, h⟩ := bind_ok h
    obtain ⟨d1, h1, h⟩ := bind_ok h
    obtain ⟨d2, h2, h⟩ := bind_ok h
    rw [ih h, setAt_length h2, setAt_length h1]

theorem shiftRight_length {gl n i} {d d' : Bytes} (h : shiftRight gl n i d = .ok d') : d'.length = d.length := by
  induction n generalizing d i with
  | zero => cases h; rfl
  | succ n ih =>
    unfold shiftRight at h
    obtain ⟨x, _, h⟩ := bind_ok h
    obtain ⟨j, _, h⟩ := bind_ok h
    obtain ⟨d1, h1, h⟩ := bind_ok h
    obtain ⟨d2, h2, h⟩ := bind_ok h
    rw [ih h, setAt_length h2, setAt_length h1]

/-- Moving the gap keeps the block. -/
theorem moveGap_size {g g' : GapBuffer} {o} (h : moveGap g o = .ok g') : g'.data.length = g.data.length ∧ g'.clock = g.clock := by
  unfold moveGap at h
  split at h
  · cases h; exact ⟨rfl, rfl⟩
  split at h
  · obtain ⟨d, h1, h⟩ := bind_ok h
    cases h; exact ⟨shiftLeft_length h1, rfl⟩
  split at h
  · obtain ⟨d, h1, h⟩ := bind_ok h
    obtain ⟨j, _, h⟩ := bind_ok h
    cases h; exact ⟨shiftRight_length h1, rfl⟩
  · cases h; exact ⟨rfl, rfl⟩

theorem writeToGap_size {bs} {g g' : GapBuffer} (h : writeToGap bs g = .ok g') : g'.data.length = g.data.length ∧ g'.clock = g.clock := by
  induction bs generalizing g with
  | nil => cases h; exact ⟨rfl, rfl⟩
  | cons b bs ih =>
    unfold writeToGap at h
    obtain ⟨d, h1, h⟩ := bind_ok h
    obtain ⟨j, _, h⟩ := bind_ok h
    obtain ⟨h2, h3⟩ := ih h
    exact ⟨by rw [h2]; exact setAt_length h1, h3⟩

/-- Only a string that does not fit makes the block larger. -/
theorem grow_size {g g' : GapBuffer} {n} (h : grow A g n = .ok g') :
    g'.data.length = g.data.length + (if n ≤ g.gapLength then 0 else (A.get g.clock g.data.length n).length) ∧
    g'.clock = g.clock + (if n ≤ g.gapLength then 0 else 1) := by
  unfold grow at h
  by_cases hn : n > g.gapLength
  · rw [if_pos hn] at h
    obtain ⟨g1, h1, h⟩ := bind_ok h
    obtain ⟨j, _, h⟩ := bind_ok h
    obtain ⟨k1, k2⟩ := moveGap_size h1
    have e : g' = _ := (Except.ok.inj h).symm
    rw [if_neg (by omega), if_neg (by omega), e]
    simp [k1, k2]
  · rw [if_neg hn] at h
    cases h
    rw [if_pos (by omega), if_pos (by omega)]; exact ⟨rfl, rfl⟩

theorem insert_size {g g' : GapBuffer} {s p} (h : insert S A g s p = .ok g') :
    g'.data.length = g.data.length + (if blen s ≤ g.gapLength then 0 else (A.get g.clock g.data.length (blen s)).length) ∧
    g'.clock = g.clock + (if blen s ≤ g.gapLength then 0 else 1) := by
  unfold insert at h
  obtain ⟨g1, h1, h⟩ := bind_ok h
  have := grow_size h1
  obtain ⟨o, h2, h⟩ := bind_ok h
  cases o with
  | none => cases h; exact this
  | some o =>
    obtain ⟨g2, h3, h⟩ := bind_ok h
    obtain ⟨a1, a2⟩ := moveGap_size h3
    obtain ⟨b1, b2⟩ := writeToGap_size h
    rw [b1, b2, a1, a2]; exact this

theorem delete_size {g g' : GapBuffer} {r} (h : delete S g r = .ok g') : g'.data.length = g.data.length ∧ g'.clock = g.clock := by
  unfold delete at h
  obtain ⟨o, h1, h⟩ := bind_ok h
  cases o with
  | none => cases h; exact ⟨rfl, rfl⟩
  | some o =>
    obtain ⟨g1, h2, h⟩ := bind_ok h
    have := moveGap_size h2
    obtain ⟨o, h3, h⟩ := bind_ok h
    cases o with
    | some o =>
      obtain ⟨j, _, h⟩ := bind_ok h
      cases h; exact this
    | none =>
      obtain ⟨o, h3, h⟩ := bind_ok h
      cases o with
      | some o =>
        obtain ⟨j, _, h⟩ := bind_ok h
        cases h; exact this
      | none =>
        obtain ⟨j, _, h⟩ := bind_ok h
        cases h; exact this

/-- The gap buffer stands for the zipper. -/
structure Zips (g : GapBuffer) (z : Zip) : Prop where
  rep : Rep g z.left z.right
  size : g.data.length = z.size
  clock : g.clock = z.clock

theorem Zips.room {g z} (h : Zips g z) : g.gapLength = z.room := by
  have h1 := h.rep.length
  have h2 := h.rep.start
  have h3 := h.size
  unfold Zip.room; omega


theorem lo_hi (p q : Position) : (Range.new p q).start = lo p q ∧ (Range.new p q).stop = hi p q := by
  rw [range_new]; exact ⟨rfl, rfl⟩

theorem Zips.call {g z} (h : Zips g z) (c : Call) : ∃ g', GapBuffer.call S A g c = .ok ((z.call S.segs A.grant c).1, g') ∧
    Zips g' (z.call S.segs A.grant c).2 := by
  cases c with
  | insert s p =>
    obtain ⟨g', pre, post, hi, hc, hm⟩ := insert_rep (A := A) (S := S) h.rep s p
    have hs := insert_size hi
    rw [h.room, h.clock, h.size] at hs
    rw [h.room] at hc
    have hz : (z.reserve A.grant (blen s)).left = pre ∧ (z.reserve A.grant (blen s)).right = post ∧
        g'.data.length = (z.reserve A.grant (blen s)).size ∧ g'.clock = (z.reserve A.grant (blen s)).clock := by
      unfold Zip.reserve
      rcases hc with ⟨h1, rfl, rfl⟩ | ⟨h1, rfl, rfl⟩
      · rw [if_pos h1, if_pos h1] at hs; rw [if_pos h1]; exact ⟨rfl, rfl, hs⟩
      · rw [if_neg (by omega), if_neg (by omega)] at hs; rw [if_neg (by omega)]; exact ⟨rfl, rfl, hs⟩
    obtain ⟨rfl, rfl, h3, h4⟩ := hz
    refine ⟨g', ?_, ?_⟩
    · simp only [GapBuffer.call, hi, Zip.call, Except.ok_bind']
      split <;> rfl
    · simp only [Zip.call, Zip.clusters]
      cases hl : locate (S.segs (z.reserve A.grant (blen s)).left ++ S.segs (z.reserve A.grant (blen s)).right) p with
      | none => rw [hl] at hm; exact ⟨hm, h3, h4⟩
      | some x => rw [hl] at hm; exact ⟨hm, h3, h4⟩
  | delete p q =>
    have hr := range_new_ok p q
    obtain ⟨g', hd, hm⟩ := delete_rep (S := S) h.rep (Range.new p q) hr
    obtain ⟨h3, h4⟩ := delete_size hd
    rw [h.size] at h3
    rw [h.clock] at h4
    rw [(lo_hi p q).1, (lo_hi p q).2] at hm
    refine ⟨g', ?_, ?_⟩
    · simp only [GapBuffer.call, hd, Zip.call, Except.ok_bind']
      split <;> rfl
    · simp only [Zip.call, Zip.clusters]
      cases hl : locate (S.segs z.left ++ S.segs z.right) (lo p q) with
      | none => rw [hl] at hm; rw [hm]; exact h
      | some x =>
        obtain ⟨a, b⟩ := x
        rw [hl] at hm
        simp only [afterEnd] at hm ⊢
        cases hl2 : locate (S.segs a.flatten ++ S.segs b.flatten) (hi p q) with
        | some x => rw [hl2] at hm; exact ⟨hm.1, h3, h4⟩
        | none =>
          rw [hl2] at hm
          simp only at hm ⊢
          cases hl3 : locate (S.segs a.flatten ++ S.segs b.flatten) ⟨(hi p q).line + 1, 0⟩ with
          | some x => rw [hl3] at hm; exact ⟨hm.1, h3, h4⟩
          | none => rw [hl3] at hm; exact ⟨by simpa using hm, h3, h4⟩
  | read p q =>
    have hr := range_new_ok p q
    refine ⟨g, ?_, ?_⟩
    · simp only [GapBuffer.call]
      rw [read_rep h.rep _ hr, (lo_hi p q).1, (lo_hi p q).2]
      simp only [Zip.call, Zip.clusters]
      cases locate (S.segs z.left ++ S.segs z.right) (lo p q) <;>
        cases locate (S.segs z.left ++ S.segs z.right) (hi p q) <;> rfl
    · have : (z.call S.segs A.grant (.read p q)).2 = z := by
        simp only [Zip.call]; split <;> rfl
      rw [this]; exact h
  | inBounds p => exact ⟨g, by simp only [GapBuffer.call]; rw [inBounds_rep h.rep]; rfl, h⟩
  | toStr => exact ⟨g, by simp only [GapBuffer.call]; rw [h.rep.toStr]; rfl, h⟩

theorem Zips.run {g z} (h : Zips g z) (cs : List Call) : ∃ g', GapBuffer.run S A g cs = .ok ((z.run S.segs A.grant cs).1, g') ∧
    Zips g' (z.run S.segs A.grant cs).2 := by
  induction cs generalizing g z with
  | nil => exact ⟨g, rfl, h⟩
  | cons c cs ih =>
    obtain ⟨g1, h1, h2⟩ := h.call (S := S) (A := A) c
    obtain ⟨g2, h3, h4⟩ := ih h2
    refine ⟨g2, ?_, h4⟩
    simp only [GapBuffer.run, h1, Except.ok_bind', h3]; rfl

/-- A new gap buffer: the gap is at the end. -/
theorem Zips.new (k : Nat) (t : Text) : Zips (GapBuffer.new A k t) ⟨t, [], blen t + A.grant k (blen t) 0, k + 1⟩ :=
  ⟨new_rep k t, by simp [GapBuffer.new, blen, Alloc.grant], rfl⟩

end GapBuffer
end Scribe
