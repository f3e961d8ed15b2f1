import Verif.Proofs.Aligned
import Verif.Proofs.Position
/-! Sequences of gap buffer calls. -/
namespace Scribe
open Spec
namespace GapBuffer
variable {S : Segmenter} {A : Alloc}

/-- One call from any representable state: no panic, still representable, contiguous effect. -/
theorem call_rep {g pre post} (h : Rep g pre post) (c : Call) : ∃ o g' pre' post',
    call S A g c = .ok (o, g') ∧ Rep g' pre' post' ∧ Effect (pre ++ post) (pre' ++ post') c := by
  cases c with
  | insert s p =>
    obtain ⟨g', pre', post', hi, hc, hm⟩ := insert_rep (S := S) (A := A) h s p
    have hj : pre' ++ post' = pre ++ post := by
      rcases hc with ⟨_, rfl, rfl⟩ | ⟨_, rfl, rfl⟩ <;> simp
    cases hl : locate (S.segs pre' ++ S.segs post') p with
    | none =>
      rw [hl] at hm
      exact ⟨.done, g', _, _, by simp only [call, hi, Except.ok_bind']; rfl, hm, Or.inl hj⟩
    | some x =>
      obtain ⟨a, b⟩ := x
      rw [hl] at hm
      obtain ⟨hab, _⟩ := locate_eq_some.mp hl
      refine ⟨.done, g', _, _, by simp only [call, hi, Except.ok_bind']; rfl, hm, Or.inr ⟨a.flatten, b.flatten, ?_, rfl⟩⟩
      rw [← hj, ← S.join pre', ← S.join post', ← List.flatten_append, hab, List.flatten_append]
  | delete p q =>
    obtain ⟨g', hd, hm⟩ := delete_rep (S := S) h (Range.new p q) (range_new_ok p q)
    have hcall : call S A g (.delete p q) = .ok (.done, g') := by simp only [call, hd, Except.ok_bind']; rfl
    cases hl : locate (S.segs pre ++ S.segs post) (Range.new p q).start with
    | none =>
      rw [hl] at hm
      simp only at hm
      subst hm
      exact ⟨.done, g', pre, post, hcall, h, pre, [], post, by simp, rfl⟩
    | some x =>
      obtain ⟨a, b⟩ := x
      obtain ⟨hab, _⟩ := locate_eq_some.mp hl
      have hj : pre ++ post = a.flatten ++ b.flatten := by
        rw [← S.join pre, ← S.join post, ← List.flatten_append, hab, List.flatten_append]
      rw [hl] at hm
      simp only at hm
      have fin : ∀ b' d, Rep g' a.flatten b'.flatten → S.segs b.flatten = d ++ b' →
          ∃ o g'' pre' post', call S A g (.delete p q) = .ok (o, g'') ∧ Rep g'' pre' post' ∧
            Effect (pre ++ post) (pre' ++ post') (.delete p q) := by
        intro b' d hr hd
        refine ⟨.done, g', _, _, hcall, hr, a.flatten, d.flatten, b'.flatten, ?_, rfl⟩
        rw [hj, ← S.join b.flatten, hd]; simp
      cases h2 : locate (S.segs a.flatten ++ S.segs b.flatten) (Range.new p q).stop with
      | some x =>
        rw [h2] at hm
        obtain ⟨hr, d, _, hd⟩ := hm
        exact fin _ d hr hd
      | none =>
        rw [h2] at hm
        simp only at hm
        cases h3 : locate (S.segs a.flatten ++ S.segs b.flatten) ⟨(Range.new p q).stop.line + 1, 0⟩ with
        | some x =>
          rw [h3] at hm
          obtain ⟨hr, d, _, hd⟩ := hm
          exact fin _ d hr hd
        | none =>
          rw [h3] at hm
          exact fin [] (S.segs b.flatten) hm (by simp)
  | read p q =>
    exact ⟨_, g, pre, post, by simp only [call, read_rep h _ (range_new_ok p q), Except.ok_bind']; rfl, h, rfl⟩
  | inBounds p =>
    exact ⟨_, g, pre, post, by simp only [call, inBounds_rep h, Except.ok_bind']; rfl, h, rfl⟩
  | toStr => exact ⟨_, g, pre, post, by simp only [call, h.toStr, Except.ok_bind']; rfl, h, rfl⟩

theorem run_cons_ok {g c cs o g1 os g2} (h1 : call S A g c = .ok (o, g1)) (h2 : run S A g1 cs = .ok (os, g2)) :
    run S A g (c :: cs) = .ok (o :: os, g2) := by
  simp only [run, h1, h2, Except.ok_bind']; rfl

theorem run_rep {g pre post} (h : Rep g pre post) (cs : List Call) : ∃ os g' pre' post',
    run S A g cs = .ok (os, g') ∧ Rep g' pre' post' ∧
      ∀ c ∈ pre' ++ post', c ∈ pre ++ post ∨ ∃ s ∈ inserted cs, c ∈ s := by
  induction cs generalizing g pre post with
  | nil => exact ⟨[], g, pre, post, rfl, h, fun c hc => Or.inl hc⟩
  | cons c cs ih =>
    obtain ⟨o, g1, p1, q1, h1, hr1, he⟩ := call_rep (S := S) (A := A) h c
    obtain ⟨os, g2, p2, q2, h2, hr2, hm⟩ := ih hr1
    refine ⟨o :: os, g2, p2, q2, run_cons_ok h1 h2, hr2, ?_⟩
    intro x hx
    rcases hm x hx with hx | ⟨s, hs, hx⟩
    · cases c with
      | insert s p =>
        rcases he with he | ⟨y, z, he1, he2⟩
        · rw [he] at hx; exact Or.inl hx
        · rw [he2] at hx; rw [he1]
          simp only [List.mem_append] at hx ⊢
          rcases hx with (hx | hx) | hx
          · exact Or.inl (Or.inl hx)
          · exact Or.inr ⟨s, by simp [inserted], hx⟩
          · exact Or.inl (Or.inr hx)
      | delete p q =>
        obtain ⟨y, d, z, he1, he2⟩ := he
        rw [he2] at hx; rw [he1]
        simp only [List.mem_append] at hx ⊢
        rcases hx with hx | hx
        · exact Or.inl (Or.inl (Or.inl hx))
        · exact Or.inl (Or.inr hx)
      | _ => rw [show p1 ++ q1 = pre ++ post from he] at hx; exact Or.inl hx
    · refine Or.inr ⟨s, ?_, hx⟩
      cases c <;> simp [inserted, hs]

/-- One call from an aligned state is the specification's call. -/
theorem call_holds {g t} (h : Holds S g t) (c : Call) (hc : CleanCall S.segs t c) :
    ∃ g', call S A g c = .ok ((callText S.segs t c).1, g') ∧ Holds S g' (callText S.segs t c).2 := by
  cases c with
  | insert s p =>
    obtain ⟨g', hi, _, hh⟩ := h.insert (A := A) s p
    exact ⟨g', by simp only [call, hi, Except.ok_bind']; rfl, hh hc⟩
  | delete p q =>
    obtain ⟨g', hi, _, hh⟩ := h.delete (Range.new p q) (range_new_ok p q)
    rw [range_new] at hh hi
    exact ⟨g', by simp only [call, range_new, hi, Except.ok_bind']; rfl, hh hc⟩
  | read p q =>
    refine ⟨g, ?_, h⟩
    rw [call, h.read _ (range_new_ok p q), range_new]; rfl
  | inBounds p => exact ⟨g, by rw [call, h.inBounds]; rfl, h⟩
  | toStr => exact ⟨g, by rw [call, h.toStr]; rfl, h⟩

theorem run_holds {g t} (h : Holds S g t) (cs : List Call) (hc : CleanCalls S.segs t cs) :
    ∃ g', run S A g cs = .ok ((runText S.segs t cs).1, g') ∧ Holds S g' (runText S.segs t cs).2 := by
  induction cs generalizing g t with
  | nil => exact ⟨g, rfl, h⟩
  | cons c cs ih =>
    obtain ⟨g1, h1, hh1⟩ := call_holds (A := A) h c hc.1
    obtain ⟨g2, h2, hh2⟩ := ih hh1 hc.2
    exact ⟨g2, run_cons_ok h1 h2, hh2⟩

end GapBuffer
end Scribe
