import Verif.Demo
import Verif.Proofs.Uninit
/-! C75: bytes that nobody wrote are never looked at. -/
namespace Scribe.Props
open GapBuffer

/-- **C75.** For every text, allocator and sequence of calls, the gap buffer run on memory whose spare bytes are *uninitialised* (using one is a fault) ends
without fault and gives the results of the gap buffer run on ordinary bytes; afterwards every byte outside the gap has been written. -/
theorem C75_never_read (S : Segmenter) (A : Alloc) (k : Nat) (t : Text) (cs : List Call) :
    ∃ os u g, Uninit.run S A (Uninit.new A k t) cs = .ok (os, u) ∧ GapBuffer.run S A (GapBuffer.new A k t) cs = .ok (os, g) ∧
      u.gapStart = g.gapStart ∧ u.gapLength = g.gapLength ∧ u.data.length = g.data.length ∧
      u.data.take u.gapStart = (g.data.take g.gapStart).map some ∧
      u.data.drop (u.gapStart + u.gapLength) = (g.data.drop (g.gapStart + g.gapLength)).map some := by
  obtain ⟨os, u, g, h1, h2, h3⟩ := Uninit.run_follows (S := S) (Uninit.new_follows (A := A) k t) (GapBuffer.new_rep k t) cs
  refine ⟨os, u, g, h2, h1, h3.start, h3.length, h3.mem.len, ?_, ?_⟩
  · apply List.ext_getElem?
    intro i
    rw [h3.start, List.getElem?_map, List.getElem?_take, List.getElem?_take]
    split
    · exact h3.mem.eq i (Or.inl ‹_›)
    · rfl
  · apply List.ext_getElem?
    intro i
    rw [h3.start, h3.length, List.getElem?_map, List.getElem?_drop, List.getElem?_drop]
    exact h3.mem.eq _ (Or.inr (by omega))

/-- Uninitialised bytes are really there: after a few calls the gap (here bytes 1 to 11) holds zeros left by moved text, bytes nobody wrote, and deleted text. -/
example :
    ((Uninit.run Demo.seg Demo.loose (Uninit.new Demo.loose 0 (Demo.s "aé"))
      [.insert (Demo.s "w") ⟨0, 1⟩, .insert (Demo.s "bcdefg") ⟨0, 0⟩, .delete ⟨0, 1⟩ ⟨0, 3⟩, .toStr]).map fun r => (r.1.getLast?, r.2.data, r.2.gapStart, r.2.gapLength)) =
    .ok (some (.text (Demo.s "befgawé")), [some 0x62] ++ (List.replicate 7 (some 0) ++ [none, none, some 0x63, some 0x64]) ++
      [some 0x65, some 0x66, some 0x67, some 0x61, some 0x77, some 0xC3, some 0xA9], 1, 11) := by
  decide +kernel

/-- Using an uninitialised byte is a fault: a gap buffer whose gap is recorded one byte too short. -/
example : Uninit.toStr ⟨[some 0x61, none, none], 1, 1, 0⟩ = .error .uninit := by decide +kernel

/-- **C75, stale bytes.** What the allocator leaves in spare memory cannot be seen: two allocators that grant the same amounts give the same results. -/
theorem C75_stale (S : Segmenter) (A B : Alloc) (hAB : ∀ k size n, (A.get k size n).length = (B.get k size n).length) (k : Nat) (t : Text) (cs : List Call) :
    (GapBuffer.run S A (GapBuffer.new A k t) cs).map (·.1) = (GapBuffer.run S B (GapBuffer.new B k t) cs).map (·.1) := by
  obtain ⟨os, u, g, h1, h2, _⟩ := C75_never_read S A k t cs
  obtain ⟨os', u', g', h1', h2', _⟩ := C75_never_read S B k t cs
  have e : Uninit.run S A = Uninit.run S B := by
    have eg : Uninit.grow A = Uninit.grow B := by funext g n; unfold Uninit.grow; simp only [hAB]
    have ei : Uninit.insert S A = Uninit.insert S B := by funext g s p; unfold Uninit.insert; rw [eg]
    have ec : Uninit.call S A = Uninit.call S B := by funext g c; cases c <;> simp only [Uninit.call, ei]
    funext g cs
    induction cs generalizing g with
    | nil => rfl
    | cons c cs ih => simp only [Uninit.run, ec, ih]
  have en : Uninit.new A k t = Uninit.new B k t := by simp only [Uninit.new, hAB]
  rw [e, en, h1'] at h1
  cases h1
  rw [h2, h2']
  rfl

/-- Memory full of `0xFF` against memory full of zeros. -/
example :
    let A : Alloc := ⟨fun _ _ n => List.replicate (n + 2) 0xFF, fun _ _ n => by simp⟩
    let B : Alloc := ⟨fun _ _ n => List.replicate (n + 2) 0, fun _ _ n => by simp⟩
    (∀ k size n, (A.get k size n).length = (B.get k size n).length) ∧ GapBuffer.new A 0 (Demo.s "é") ≠ GapBuffer.new B 0 (Demo.s "é") := by
  refine ⟨fun k size n => ?_, by decide +kernel⟩
  simp

end Scribe.Props
