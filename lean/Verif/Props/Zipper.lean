import Verif.Proofs.Zipper
import Verif.Demo
/-!
# Property C67: the gap buffer on every text, and its memory

No condition on the calls: also edits that fuse or split clusters.
-/
namespace Scribe.Props
open Spec GapBuffer

/-- **C67.** For every text, allocator and sequence of calls, all results are those of two strings (before and after the gap), each
cut into clusters on its own: a position counts the clusters of the first, then those of the second; an insertion leaves the gap after
the string; a string that does not fit first moves the gap to the end of the text, also when the position does not exist; a deletion
puts the gap at its start and only then looks for its end. The bytes between them are what is left of the block. -/
theorem C67_zipper (S : Segmenter) (A : Alloc) (k : Nat) (t : Text) (cs : List Call) :
    let z := Zip.run S.segs A.grant ⟨t, [], blen t + A.grant k (blen t) 0, k + 1⟩ cs
    ∃ g, GapBuffer.run S A (GapBuffer.new A k t) cs = .ok (z.1, g) ∧ toStr g = .ok (z.2.left ++ z.2.right) ∧
      g.gapStart = blen z.2.left ∧ g.gapLength = z.2.room ∧ g.data.length = z.2.size ∧
      g.data.take g.gapStart = enc z.2.left ∧ g.data.drop (g.gapStart + g.gapLength) = enc z.2.right := by
  obtain ⟨g, h1, h2⟩ := (Zips.new (A := A) k t).run (S := S) (A := A) cs
  obtain ⟨gap, e1, e2, e3⟩ := h2.rep
  refine ⟨g, h1, h2.rep.toStr, h2.rep.start, h2.room, h2.size, ?_, ?_⟩
  · rw [e1, e2, List.append_assoc, List.take_left' rfl]
  · rw [e1, e2, e3, ← List.length_append, List.drop_left' rfl]

/-- The gap stands inside a cluster (`e` and an accent) after an insertion: the two halves count as two, so (1,2) exists. A *refused*
insertion that does not fit moves the gap away, and (1,2) stops existing although the text is the same. -/
example :
    let cs : List Call := [.insert (Demo.s "e") ⟨1, 0⟩, .toStr, .inBounds ⟨1, 2⟩, .read ⟨1, 1⟩ ⟨1, 2⟩,
      .insert (Demo.s "too long") ⟨7, 7⟩, .toStr, .inBounds ⟨1, 2⟩, .read ⟨1, 0⟩ ⟨1, 1⟩]
    (Zip.run Demo.seg.segs Demo.tight.grant ⟨Demo.s "\n\u0301", [], 3, 1⟩ cs).1 =
      [.done, .text (Demo.s "\ne\u0301"), .bool true, .opt (some (Demo.s "\u0301")),
        .done, .text (Demo.s "\ne\u0301"), .bool false, .opt (some (Demo.s "e\u0301"))] ∧
    (GapBuffer.run Demo.seg Demo.tight (GapBuffer.new Demo.tight 0 (Demo.s "\n\u0301")) cs).map (·.1) =
      .ok (Zip.run Demo.seg.segs Demo.tight.grant ⟨Demo.s "\n\u0301", [], 3, 1⟩ cs).1 := by
  decide +kernel

/-- **C67, memory.** The block never shrinks; a call enlarges it only if it inserts a string longer than the room left by the
text; deletions turn text into room, byte for byte. -/
theorem C67_memory (S : Segmenter) (A : Alloc) (k : Nat) (t : Text) (cs : List Call) (c : Call) (os os' : List Obs) (g g' : GapBuffer)
    (h : GapBuffer.run S A (GapBuffer.new A k t) cs = .ok (os, g)) (h' : GapBuffer.run S A (GapBuffer.new A k t) (cs ++ [c]) = .ok (os', g')) :
    ∃ u u', toStr g = .ok u ∧ toStr g' = .ok u' ∧ g.gapLength + blen u = g.data.length ∧ g'.gapLength + blen u' = g'.data.length ∧
      (g'.data.length = g.data.length ∨
        ∃ s p, c = .insert s p ∧ g.data.length < blen u + blen s ∧ g.data.length + blen s ≤ g'.data.length) := by
  obtain ⟨g1, h1, h2⟩ := (Zips.new (A := A) k t).run (S := S) (A := A) cs
  rw [h] at h1
  obtain ⟨-, rfl⟩ := Prod.mk.inj (Except.ok.inj h1)
  have key : ∃ o, GapBuffer.call S A g c = .ok (o, g') := by
    clear h1 h2
    generalize GapBuffer.new A k t = g0 at h h'
    induction cs generalizing g0 os os' with
    | nil =>
      cases h
      obtain ⟨r, hr, hx⟩ := bind_ok h'
      cases hx; exact ⟨r.1, hr⟩
    | cons d cs ih =>
      obtain ⟨r, hr, hx⟩ := bind_ok h
      obtain ⟨r', hr', hx'⟩ := bind_ok h'
      rw [hr] at hr'; cases hr'
      obtain ⟨y, hy, hz⟩ := bind_ok hx
      obtain ⟨y', hy', hz'⟩ := bind_ok hx'
      cases hz; cases hz'
      exact ih _ _ _ hy hy'
  obtain ⟨o, ho⟩ := key
  generalize (Zip.run S.segs A.grant ⟨t, [], blen t + A.grant k (blen t) 0, k + 1⟩ cs).2 = z at h2
  obtain ⟨g2, k1, k2⟩ := h2.call (S := S) (A := A) c
  rw [ho] at k1
  obtain ⟨-, rfl⟩ := Prod.mk.inj (Except.ok.inj k1)
  have e1 := h2.rep.length
  have e2 := h2.rep.start
  have e3 := k2.rep.length
  have e4 := k2.rep.start
  refine ⟨_, _, h2.rep.toStr, k2.rep.toStr, by rw [blen_append]; omega, by rw [blen_append]; omega, ?_⟩
  cases c with
  | insert s p =>
    obtain ⟨x, hx, hy⟩ := bind_ok ho
    cases hy
    have := (insert_size hx).1
    have hen := A.enough g.clock g.data.length (blen s)
    by_cases hs : blen s ≤ g.gapLength
    · rw [if_pos hs] at this; exact Or.inl this
    · rw [if_neg hs] at this
      refine Or.inr ⟨s, p, rfl, ?_, by omega⟩
      rw [blen_append]; omega
  | delete p q =>
    obtain ⟨x, hx, hy⟩ := bind_ok ho
    cases hy
    exact Or.inl (delete_size hx).1
  | read p q => obtain ⟨x, hx, hy⟩ := bind_ok ho; cases hy; exact Or.inl rfl
  | inBounds p => obtain ⟨x, hx, hy⟩ := bind_ok ho; cases hy; exact Or.inl rfl
  | toStr => obtain ⟨x, hx, hy⟩ := bind_ok ho; cases hy; exact Or.inl rfl

/-- Deleted text makes room for as much; one more byte needs a new block. -/
example :
    let g := GapBuffer.run Demo.seg Demo.tight (GapBuffer.new Demo.tight 0 (Demo.s "héllo"))
    (g [.delete ⟨0, 1⟩ ⟨0, 3⟩, .insert (Demo.s "abc") ⟨0, 3⟩]).map (·.2.data.length) = .ok 6 ∧
    (g [.delete ⟨0, 1⟩ ⟨0, 3⟩, .insert (Demo.s "abcd") ⟨9, 9⟩]).map (·.2.data.length) = .ok 10 := by
  decide +kernel

end Scribe.Props
