import Verif.Proofs.Cost
import Verif.Proofs.Zipper
import Verif.Demo
/-!
# Properties C80 and C81: how much memory a gap buffer takes, and how many bytes it copies
-/
namespace Scribe.Props
open Spec GapBuffer

/-- The invariant of C80. -/
private theorem memory_step {S : Segmenter} {A : Alloc} (hA : Doubling A) {M c0 k r : Nat} {z : Zip} {c : Call}
    (hz : z.used ≤ z.size) (hM : z.used + demand c ≤ M) (hk : z.clock = k + r)
    (h : (r = 0 ∧ z.size = c0) ∨ (1 ≤ r ∧ z.size ≤ max 8 (2 * M) ∧ 2 ^ (r + 2) ≤ z.size ∧ 2 ^ r * c0 ≤ z.size)) :
    ∃ r', (z.call S.segs A.grant c).2.clock = k + r' ∧ ((r' = 0 ∧ (z.call S.segs A.grant c).2.size = c0) ∨
      (1 ≤ r' ∧ (z.call S.segs A.grant c).2.size ≤ max 8 (2 * M) ∧ 2 ^ (r' + 2) ≤ (z.call S.segs A.grant c).2.size ∧
        2 ^ r' * c0 ≤ (z.call S.segs A.grant c).2.size)) := by
  rcases zip_call_size (S := S) z A.grant c with ⟨h1, h2, h3⟩ | ⟨h1, h2, h3⟩
  · exact ⟨r, by rw [h2, hk], by rw [h1]; exact h⟩
  · have hd := hA z.clock z.size (demand c) (by omega)
    refine ⟨r + 1, by omega, Or.inr ⟨by omega, ?_, ?_, ?_⟩⟩ <;> rw [h1] <;> unfold Alloc.grant <;> unfold Zip.room Zip.used at *
    · omega
    · rcases h with ⟨rfl, _⟩ | ⟨_, _, h4, _⟩
      · omega
      · have : 2 ^ (r + 1 + 2) = 2 * 2 ^ (r + 2) := by rw [show r + 1 + 2 = (r + 2) + 1 by omega, Nat.pow_succ]; omega
        omega
    · rcases h with ⟨rfl, h4⟩ | ⟨_, _, _, h4⟩
      · omega
      · have : 2 ^ (r + 1) * c0 = 2 * (2 ^ r * c0) := by rw [Nat.pow_succ]; ac_rfl
        omega

/-- **C80.** With the growth policy of `Vec`, memory is proportional to the text: if before every call the bytes of the text and those the
call inserts are at most `M`, then the block is the first one, or it has at most `2 M` bytes (8 if that is more); and if it has been
replaced `r` times, it has at least `2 ^ (r + 2)` bytes and at least `2 ^ r` times the first, so the number of reallocations is logarithmic,
however many the calls. -/
theorem C80_memory (S : Segmenter) (A : Alloc) (hA : Doubling A) (k : Nat) (t : Text) (cs : List Call) (M : Nat)
    (hM : ∀ pre c post, cs = pre ++ c :: post → ∀ os g u, run S A (new A k t) pre = .ok (os, g) → toStr g = .ok u → blen u + demand c ≤ M)
    (os : List Obs) (g : GapBuffer) (h : run S A (new A k t) cs = .ok (os, g)) :
    (g.clock = (new A k t).clock ∧ g.data.length = (new A k t).data.length) ∨
    ∃ r, 1 ≤ r ∧ g.clock = (new A k t).clock + r ∧ g.data.length ≤ max 8 (2 * M) ∧
      2 ^ (r + 2) ≤ g.data.length ∧ 2 ^ r * (new A k t).data.length ≤ g.data.length := by
  have hz := Zips.new (A := A) k t
  have hrun : ∀ (cs : List Call) (g : GapBuffer) (z : Zip) (r : Nat), Zips g z →
      (∀ pre c post, cs = pre ++ c :: post → ∀ os g1 u, run S A g pre = .ok (os, g1) → toStr g1 = .ok u → blen u + demand c ≤ M) →
      z.clock = (new A k t).clock + r →
      ((r = 0 ∧ z.size = (new A k t).data.length) ∨
        (1 ≤ r ∧ z.size ≤ max 8 (2 * M) ∧ 2 ^ (r + 2) ≤ z.size ∧ 2 ^ r * (new A k t).data.length ≤ z.size)) →
      ∀ os g', run S A g cs = .ok (os, g') → ∃ r', g'.clock = (new A k t).clock + r' ∧
        ((r' = 0 ∧ g'.data.length = (new A k t).data.length) ∨
          (1 ≤ r' ∧ g'.data.length ≤ max 8 (2 * M) ∧ 2 ^ (r' + 2) ≤ g'.data.length ∧ 2 ^ r' * (new A k t).data.length ≤ g'.data.length)) := by
    intro cs
    induction cs with
    | nil =>
      intro g z r hz _ hk hi os g' h
      cases h
      exact ⟨r, by rw [hz.clock, hk], by rw [hz.size]; exact hi⟩
    | cons c cs ih =>
      intro g z r hz hM hk hi os g' h
      obtain ⟨g1, h1, hz1⟩ := hz.call (S := S) (A := A) c
      obtain ⟨x, hx, h⟩ := bind_ok h
      rw [h1] at hx
      cases hx
      obtain ⟨y, hy, h⟩ := bind_ok h
      cases h
      have hb : z.used + demand c ≤ M := by
        have := hM [] c cs rfl [] g _ rfl hz.rep.toStr
        rwa [blen_append] at this
      have hle : z.used ≤ z.size := by
        have e1 := hz.rep.length
        have e2 := hz.rep.start
        have e3 := hz.size
        unfold Zip.used
        omega
      obtain ⟨r', k1, k2⟩ := memory_step (S := S) hA hle hb hk hi
      refine ih g1 _ r' hz1 ?_ k1 k2 y.1 y.2 hy
      intro pre d post e os2 g2 u hr hu
      refine hM (c :: pre) d post (by rw [e]; rfl) ((z.call S.segs A.grant c).1 :: os2) g2 u ?_ hu
      simp only [run, h1, Except.ok_bind', hr]
      rfl
  obtain ⟨r, h1, h2⟩ := hrun cs _ _ 0 hz hM rfl (Or.inl ⟨rfl, hz.size.symm⟩) os g h
  rcases h2 with ⟨rfl, h2⟩ | ⟨h2, h3, h4, h5⟩
  · exact Or.inl ⟨h1, h2⟩
  · exact Or.inr ⟨r, h2, h1, h3, h4, h5⟩

theorem vec_doubling : Doubling vec := by
  intro k size n hn
  simp only [vec, List.length_replicate]
  rw [if_neg (by omega)]
  omega

/-- Eight bytes are typed one at a time, then deleted and typed again: three blocks (of 2, 8 and 16 bytes) in all, at most twice the 10 bytes
of text. -/
example :
    let word : List Call := (List.range 8).map fun i => .insert (Demo.s "x") ⟨0, i⟩
    let cs := word ++ [.delete ⟨0, 0⟩ ⟨0, 8⟩] ++ word
    (run Demo.seg vec (new vec 0 (Demo.s "ab")) cs).map (fun r => (r.2.clock, r.2.data.length)) = .ok (3, 16) := by
  decide +kernel

/-- **C81.** The functions with a counter of bytes copied are the functions without, so the counter is about the same runs. -/
theorem C81_counter (S : Segmenter) (A : Alloc) (k : Nat) (t : Text) (cs : List Call) :
    ∃ os g n, run S A (new A k t) cs = .ok (os, g) ∧ runC S A (new A k t) 0 cs = .ok (os, g, n) := by
  obtain ⟨os, g, n, h1, h2⟩ := runC_ok (S := S) (A := A) (new_rep (A := A) k t) cs 0
  exact ⟨os, g, _, h1, h2⟩

/-- **C81, one call.** No call copies more than the bytes of the text and those it inserts, or, when the block has to be replaced, three
times the block and those it inserts. -/
theorem C81_call (S : Segmenter) (A : Alloc) (k : Nat) (t : Text) (cs : List Call) (os : List Obs) (g : GapBuffer) (u : Text)
    (h : run S A (new A k t) cs = .ok (os, g)) (hu : toStr g = .ok u) (c : Call) :
    ∃ o g' n, callC S A g 0 c = .ok (o, g', n) ∧
      n ≤ (if blen u + demand c ≤ g.data.length then blen u else 3 * g.data.length) + demand c := by
  obtain ⟨g1, h1, hz⟩ := (Zips.new (A := A) k t).run (S := S) (A := A) cs
  rw [h] at h1
  cases h1
  rw [hz.rep.toStr] at hu
  cases hu
  obtain ⟨o, g', n, _, h2, h3, _, h4⟩ := callC_ok (S := S) (A := A) hz.rep c 0
  have e1 := hz.rep.length
  have e2 := hz.rep.start
  refine ⟨o, g', n, by rw [h2, Nat.zero_add], ?_⟩
  rw [blen_append]
  split
  · have := h3 (by omega); omega
  · exact h4 (by omega)

/-- **C81, exactly.** A call copies exactly: the inserted bytes; the bytes between the gap and the place of the edit (none if the gap is empty); and, when the
string does not fit, before that the bytes after the gap and the block. `z` is the text before and after the gap after the calls so far (C67). -/
theorem C81_exact (S : Segmenter) (A : Alloc) (k : Nat) (t : Text) (cs : List Call) (os : List Obs) (g : GapBuffer)
    (h : run S A (new A k t) cs = .ok (os, g)) (c : Call) :
    let z := (Zip.run S.segs A.grant ⟨t, [], blen t + A.grant k (blen t) 0, k + 1⟩ cs).2
    ∃ o g', callC S A g 0 c = .ok (o, g', z.cost S.segs A.grant c) := by
  obtain ⟨g1, h1, hz⟩ := (Zips.new (A := A) k t).run (S := S) (A := A) cs
  rw [h] at h1
  cases h1
  exact callC_exact hz c

/-- The gap is after "xy" in "xyab\nc"; two bytes inserted at the end travel over four bytes; then three bytes do not fit in the gap of two. -/
example : let z := (Zip.run Demo.seg.segs vec.grant ⟨Demo.s "ab\nc", [], 4, 1⟩ [.insert (Demo.s "xy") ⟨0, 0⟩]).2
    z = ⟨Demo.s "xy", Demo.s "ab\nc", 8, 2⟩ ∧ z.cost Demo.seg.segs vec.grant (.insert (Demo.s "pq") ⟨1, 1⟩) = 6 ∧
    z.cost Demo.seg.segs vec.grant (.insert (Demo.s "pqr") ⟨0, 1⟩) = 4 + 8 + 5 + 3 := by decide +kernel

/-- The invariant of `C81_typing`. -/
private theorem typing_cost {S : Segmenter} {A : Alloc} (hA : Doubling A) (ss : List Text) :
    ∀ (g : GapBuffer) (z : Zip) (cost : Nat), Zips g z → ∃ os g' n z', runC S A g cost (typing S.segs A.grant z ss) = .ok (os, g', cost + n) ∧
      Zips g' z' ∧ z.size ≤ z'.size ∧ n + 3 * z.size ≤ 3 * z'.size + blen ss.flatten ∧
      z'.size ≤ max z.size (max 8 (2 * (z.used + blen ss.flatten))) := by
  induction ss with
  | nil => intro g z cost hz; exact ⟨[], g, 0, z, rfl, hz, Nat.le_refl _, by omega, by omega⟩
  | cons s ss ih =>
    intro g z cost hz
    obtain ⟨o, g1, n, h1, h2, h3, h4, h5⟩ := callC_ok (S := S) (A := A) hz.rep (.insert s (endPos (S.segs z.left))) cost
    obtain ⟨g1', h6, hz1⟩ := hz.call (S := S) (A := A) (.insert s (endPos (S.segs z.left)))
    rw [h1] at h6
    cases h6
    obtain ⟨os, g2, m, z2, k1, k2, k3, k4, k5⟩ := ih g1 _ (cost + n) hz1
    have hu := zip_typed (S := S) z A.grant s
    rw [hz.room] at h4 h5
    rw [hz.size] at h5
    have e1 := hz.rep.length
    have e2 := hz.rep.start
    have e3 := hz.size
    simp only [demand] at h4 h5
    refine ⟨(z.call S.segs A.grant (.insert s (endPos (S.segs z.left)))).1 :: os, g2, n + m, z2, ?_, k2, ?_, ?_, ?_⟩
    · simp only [typing, runC, h2, Except.ok_bind', k1]
      rw [Nat.add_assoc]; rfl
    all_goals
      try simp only [List.flatten_cons, blen_append]
      rcases zip_call_size (S := S) z A.grant (.insert s (endPos (S.segs z.left))) with ⟨j1, _, j3⟩ | ⟨j1, _, j3⟩
      · simp only [demand] at j3
        have := h4 j3 s rfl
        rw [j1] at k3 k4 k5
        omega
      · simp only [demand] at j1 j3
        have := h5 j3
        have hd : z.size + A.grant z.clock z.size (blen s) = _ := hA z.clock z.size (blen s) (by omega)
        unfold Zip.room at j3
        simp only [Zip.used] at hu k5 ⊢
        rw [j1] at k3 k4 k5
        omega

/-- **C81, typing.** After any calls, strings inserted each where the one before ended, that is, where the gap is, copy in total at most
their own bytes and three times the growth of the block; so with the growth policy of `Vec` typing costs a constant number of copied bytes
per byte typed, apart from one term proportional to the text. -/
theorem C81_typing (S : Segmenter) (A : Alloc) (hA : Doubling A) (k : Nat) (t : Text) (cs : List Call) (ss : List Text)
    (os : List Obs) (g : GapBuffer) (u : Text) (h : run S A (new A k t) cs = .ok (os, g)) (hu : toStr g = .ok u) :
    let z := (Zip.run S.segs A.grant ⟨t, [], blen t + A.grant k (blen t) 0, k + 1⟩ cs).2
    ∃ os' g' n, runC S A g 0 (typing S.segs A.grant z ss) = .ok (os', g', n) ∧
      g.data.length ≤ g'.data.length ∧ n ≤ blen ss.flatten + 3 * (g'.data.length - g.data.length) ∧
      n ≤ blen ss.flatten + 3 * max 8 (2 * (blen u + blen ss.flatten)) := by
  intro z
  obtain ⟨g1, h1, hz⟩ := (Zips.new (A := A) k t).run (S := S) (A := A) cs
  rw [h] at h1
  cases h1
  rw [hz.rep.toStr] at hu
  cases hu
  obtain ⟨os', g', n, z', h1, h2, h3, h4, h5⟩ := typing_cost (S := S) hA ss g z 0 hz
  refine ⟨os', g', n, by rw [h1, Nat.zero_add], ?_, ?_, ?_⟩
  · rw [h2.size, hz.size]; exact h3
  · rw [h2.size, hz.size]
    change n ≤ _ + 3 * (z'.size - z.size)
    omega
  · rw [blen_append]
    change n ≤ _ + 3 * max 8 (2 * (z.used + _))
    omega

/-- The bytes copied, for examples. -/
private def copied (t : String) (cs : List Call) : R Nat := (runC Demo.seg vec (new vec 0 (Demo.s t)) 0 cs).map (·.2.2)

/-- `typing` gives the positions one expects. Typing twice as much copies twice as many bytes; inserting alternately at two places copies
what is between them each time. -/
example :
    let x : Call := .insert (Demo.s "x") ⟨1, 0⟩
    let z : Zip := (Zip.run Demo.seg.segs vec.grant ⟨Demo.s "ab\ncd", [], 5, 1⟩ [x]).2
    let typed n := copied "ab\ncd" (x :: typing Demo.seg.segs vec.grant z (List.replicate n (Demo.s "yy")))
    let alternate n := copied "ab\ncd" (x :: (List.range n).map fun i => .insert (Demo.s "yy") ⟨i % 2, 0⟩)
    typing Demo.seg.segs vec.grant z (List.replicate 3 (Demo.s "yy")) =
      [.insert (Demo.s "yy") ⟨1, 1⟩, .insert (Demo.s "yy") ⟨1, 3⟩, .insert (Demo.s "yy") ⟨1, 5⟩] ∧
    typed 0 = .ok 8 ∧ typed 6 = .ok 32 ∧ typed 12 = .ok 66 ∧ alternate 6 = .ok 68 ∧ alternate 12 = .ok 172 := by
  decide +kernel

end Scribe.Props
