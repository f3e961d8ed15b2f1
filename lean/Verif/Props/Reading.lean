import Verif.Proofs.Reading
import Verif.Demo
/-!
# Property C108: finding a place reads the text up to it
-/
namespace Scribe.Props
open Spec GapBuffer

/-- **C108.** The functions with a counter of what is read are the functions without. -/
theorem C108_same (S : Segmenter) (A : Alloc) (k : Nat) (t : Text) (cs : List Call) :
    ∃ os g w, run S A (new A k t) cs = .ok (os, g) ∧ runR S A (new A k t) ⟨0, 0⟩ cs = .ok (os, g, w) := by
  obtain ⟨os, g, e, h1, h2⟩ := runR_eq (S := S) (A := A) (Zips.new (A := A) k t) ⟨0, 0⟩ cs
  exact ⟨os, g, _, h1, h2⟩

/-- **C108, exactly.** What every call reads, in every state that calls lead to. -/
theorem C108_exact (S : Segmenter) (A : Alloc) (k : Nat) (t : Text) (cs : List Call) (c : Call) (w : Effort) :
    ∃ os g o g', run S A (new A k t) cs = .ok (os, g) ∧ call S A g c = .ok (o, g') ∧
      callR S A g w c = .ok (o, g', w +
        ((Zip.run S.segs A.grant ⟨t, [], blen t + A.grant k (blen t) 0, k + 1⟩ cs).2).effort S.segs A.grant c) := by
  obtain ⟨g, h1, hz⟩ := (Zips.new (A := A) k t).run (S := S) (A := A) cs
  obtain ⟨o, g', h2, h3⟩ := hz.callR (S := S) (A := A) w c
  exact ⟨_, g, o, g', h1, h2, h3⟩

/-- **C108, one call.** No call decodes more than three times the bytes of the text, or looks at more than three times as many clusters as the text has bytes; inserting and
`in_bounds` decode the text at most once. -/
theorem C108_call (S : Segmenter) (A : Alloc) (k : Nat) (t : Text) (cs : List Call) (c : Call) (os : List Obs) (g : GapBuffer) (u : Text)
    (h : run S A (new A k t) cs = .ok (os, g)) (hu : toStr g = .ok u) :
    ∃ o g' e, callR S A g ⟨0, 0⟩ c = .ok (o, g', e) ∧ e.decoded ≤ 3 * blen u ∧ e.visited ≤ 3 * blen u ∧
      ((∃ s p, c = .insert s p) ∨ (∃ p, c = .inBounds p) → e.decoded ≤ blen u ∧ e.visited ≤ blen u) := by
  obtain ⟨g1, h1, hz⟩ := (Zips.new (A := A) k t).run (S := S) (A := A) cs
  rw [h] at h1
  cases h1
  obtain ⟨o, g', h2, h3⟩ := hz.callR (S := S) (A := A) ⟨0, 0⟩ c
  generalize (Zip.run S.segs A.grant ⟨t, [], blen t + A.grant k (blen t) 0, k + 1⟩ cs).2 = z at *
  rw [hz.rep.toStr] at hu
  cases hu
  refine ⟨o, g', _, h3, ?_, ?_, ?_⟩
  · have := (effort_le (S := S) (A := A) z c).1
    simp only [Effort.add_def, blen_append]; omega
  · have := (effort_le (S := S) (A := A) z c).2
    simp only [Effort.add_def, blen_append]; omega
  · rintro (⟨s, p, rfl⟩ | ⟨p, rfl⟩)
    · have h1 := lookup_le (S := S) (z.reserve A.grant (blen s)) p
      rw [reserve_bytes] at h1
      simp only [Zip.effort, Effort.add_def, blen_append]; omega
    · have h1 := lookup_le (S := S) z p
      simp only [Zip.effort, Effort.add_def, blen_append]; omega

/-- **C108, appending.** Strings appended one by one to a new gap buffer: for each, all of the text so far is decoded and all of its clusters are looked at, although the gap is
already there. -/
theorem C108_append (S : Segmenter) (A : Alloc) (k : Nat) (t : Text) (ss : List Text) :
    ∃ os g, runR S A (new A k t) ⟨0, 0⟩ (appending S.segs t ss) = .ok (os, g, readAgain S.segs t ss) ∧ toStr g = .ok (t ++ ss.flatten) := by
  obtain ⟨os, g, h1, h2⟩ := appending_eq (S := S) (A := A) (Zips.new (A := A) k t) ⟨0, 0⟩ ss
  refine ⟨os, g, ?_, h2⟩
  rw [h1]
  simp only [Effort.add_def, Nat.zero_add]

/-- **C108, quadratic.** So appending `n` strings that are not empty decodes at least `n` times the bytes of the first text and `n (n - 1) / 2` bytes more. -/
theorem C108_quadratic (S : Segmenter) (A : Alloc) (k : Nat) (t : Text) (ss : List Text) (hs : ∀ s ∈ ss, s ≠ []) :
    ∃ os g w, runR S A (new A k t) ⟨0, 0⟩ (appending S.segs t ss) = .ok (os, g, w) ∧
      2 * ss.length * blen t + ss.length * (ss.length - 1) ≤ 2 * w.decoded := by
  obtain ⟨os, g, h, -⟩ := C108_append S A k t ss
  exact ⟨os, g, _, h, readAgain_ge t ss hs⟩

/-- What is read, for examples. -/
private def looked (t : String) (cs : List Call) : R Effort := (runR Demo.seg vec (new vec 0 (Demo.s t)) ⟨0, 0⟩ cs).map (·.2.2)

/-- One character at the end, at the beginning and where there is nothing; a deletion whose end does not exist; appending twice as much reads four times as much. -/
example :
    looked "ab\ncé" [.insert (Demo.s "x") ⟨1, 2⟩] = .ok ⟨6, 5⟩ ∧ looked "ab\ncé" [.insert (Demo.s "x") ⟨0, 0⟩] = .ok ⟨6, 1⟩ ∧
    looked "ab\ncé" [.insert (Demo.s "x") ⟨0, 0⟩, .inBounds ⟨0, 0⟩] = .ok ⟨7, 2⟩ ∧
    looked "ab\ncé" [.insert (Demo.s "x") ⟨0, 0⟩, .inBounds ⟨1, 0⟩] = .ok ⟨13, 6⟩ ∧
    looked "ab\ncé" [.inBounds ⟨0, 9⟩] = .ok ⟨6, 5⟩ ∧ looked "ab\ncé" [.delete ⟨1, 0⟩ ⟨7, 0⟩] = .ok ⟨18, 14⟩ ∧
    looked "ab\ncé" [.read ⟨0, 1⟩ ⟨1, 2⟩] = .ok ⟨17, 7⟩ ∧
    (looked "" (appending Demo.seg.segs [] (List.replicate 8 (Demo.s "x")))).map (·.decoded) = .ok 28 ∧
    (looked "" (appending Demo.seg.segs [] (List.replicate 16 (Demo.s "x")))).map (·.decoded) = .ok 120 := by
  decide +kernel

end Scribe.Props
