import Verif.Oracle.Caller
import Verif.Oracle.SoundShared
import Verif.Props.Caller
/-! # The executable forms of C104 follow from the theorems -/
namespace Scribe.Oracle
open Spec Shared

variable {S : Segmenter} {A : Alloc}

theorem sameArg_refl {ξ : Type} (r : R (Shared.Buf ξ × World ξ)) : sameArg r r = true := by
  cases r <;> simp [sameArg]

theorem s_C104_strings (k : Nat) (t : Text) (p : Position) (s : Text) : o_C104_strings S A k t p s = true := by
  obtain ⟨h1, h2⟩ := C104_strings S A (argBuf A k t p).2 (argBuf A k t p).1 (.two s s) s (two_is s)
  simp only [o_C104_strings, h1, h2, sameArg_refl, Bool.and_self]

theorem s_C104_no_panic {f : Callback Diary} (hf : Behaves f) (k : Nat) (t : Text) (cs : List (Shared.Buf.ArgCmd Diary)) (hc : ∀ c ∈ cs, c.Behaves) :
    o_C104_no_panic S A f k t cs = true := by
  have hw : Sound (⟨[], []⟩ : World Diary) := ⟨(fun c hc => by cases hc), (fun c hc => by cases hc)⟩
  obtain ⟨b, w', u, h1, h2, h3⟩ := C104_no_panic S A f hf ⟨[], []⟩ hw k t cs hc
  simp only [o_C104_no_panic, okAnd_iff, Bool.and_eq_true, idle_iff]
  exact ⟨_, h1, _, h3, sameWorld_refl _, h2.1⟩

theorem putFirst_eq (k : Nat) (t : Text) (p : Position) (x : Text) (hx : CleanInsert S.segs t x ⟨0, 0⟩) :
    ∃ g, putFirst S A x (argBuf A k t p).2 = .ok ⟨[.free g], ()⟩ ∧ Holds S g (insertAt S.segs t x ⟨0, 0⟩) := by
  obtain ⟨g, i1, -, i3⟩ := (GapBuffer.holds_new (S := S) (A := A) k t).insert (A := A) x ⟨0, 0⟩
  refine ⟨g, ?_, i3 hx⟩
  have k1 : (⟨[.free (GapBuffer.new A k t)], ()⟩ : World Unit).cells[(0 : Nat)]? = some (.free (GapBuffer.new A k t)) := rfl
  have m1 : withWrite (⟨[.free (GapBuffer.new A k t)], ()⟩ : World Unit) 0 (fun g w => do return (← g.insert S A x ⟨0, 0⟩, w)) = .ok ⟨[.free g], ()⟩ := by
    rw [withWrite_pure k1, i1]; rfl
  exact m1

theorem s_C104_insert (k : Nat) (t : Text) (p : Position) (x s : Text) : o_C104_insert S A k t p x s = true := by
  simp only [o_C104_insert, imp_iff, okAnd_iff, Bool.and_eq_true, decide_eq_true_eq]
  intro hx
  obtain ⟨g, h1, h2⟩ := putFirst_eq (A := A) k t p x hx
  have ha : (Arg.edits S A [] x [] s).into (argBuf A k t p).2 = .ok (s, ⟨[.free g], ()⟩) := by simp only [Arg.edits, h1, Except.ok_bind']
  obtain ⟨b2, w2, e1, e2, e3⟩ := C104_insert S A _ _ (argBuf A k t p).1 _ s _ g rfl rfl ha rfl h2
  refine ⟨(b2, w2), e1, ⟨_, e2, rfl⟩, fun hc hn => ?_⟩
  obtain ⟨b3, w3, e4, e5⟩ := e3 hc hn
  exact ⟨(b3, w3), e4, _, e5, rfl⟩

theorem s_C104_replace (k : Nat) (t : Text) (p : Position) (x y said given : Text) : o_C104_replace S A k t p x y said given = true := by
  simp only [o_C104_replace, imp_iff, okAnd_iff]
  intro hx
  obtain ⟨g, h1, h2⟩ := putFirst_eq (A := A) k t p x hx
  have ha : (Arg.edits S A x y said given).asRef (argBuf A k t p).2 = .ok (said, ⟨[.free g], ()⟩) := by simp only [Arg.edits, h1, Except.ok_bind']
  have ht : Shared.Buf.text (argBuf A k t p).2 (argBuf A k t p).1 = .ok (t, (argBuf A k t p).2) :=
    text_free (g := GapBuffer.new A k t) rfl (holds_toStr (GapBuffer.holds_new (S := S) k t))
  obtain ⟨e1, e2⟩ := C104_replace S A _ _ (argBuf A k t p).1 (.edits S A x y said given) said t _ g rfl rfl ht ha rfl h2
  by_cases he : said = t
  · refine ⟨_, e1 he, ?_⟩
    rw [if_pos he]
    simp only [Bool.and_eq_true, okAnd_iff, decide_eq_true_eq]
    exact ⟨⟨trivial, trivial⟩, _, text_free (g := g) rfl (holds_toStr h2), rfl⟩
  · obtain ⟨pre, post, -, hr, -⟩ := id h2
    obtain ⟨g', i1, -⟩ := insert_safe (S := S) (A := A) hr y ⟨0, 0⟩
    have k1 : (⟨[.free g], ()⟩ : World Unit).cells[(0 : Nat)]? = some (.free g) := rfl
    have m1 : withWrite (⟨[.free g], ()⟩ : World Unit) 0 (fun g w => do return (← g.insert S A y ⟨0, 0⟩, w)) = .ok ⟨[.free g'], ()⟩ := by
      rw [withWrite_pure k1, i1]; rfl
    have m2 : putFirst S A y (⟨[.free g], ()⟩ : World Unit) = .ok ⟨[.free g'], ()⟩ := m1
    obtain ⟨b3, w3, e3, e4, e5, b4, w4, e6, e7⟩ := e2 he given ⟨[.free g'], ()⟩ (.free g') (by simp only [Arg.edits, m2, Except.ok_bind']) rfl
    refine ⟨_, e3, ?_⟩
    rw [if_neg he]
    simp only [Bool.and_eq_true, okAnd_iff, decide_eq_true_eq]
    exact ⟨⟨e5, _, e4, rfl⟩, _, e6, _, e7, rfl⟩

end Scribe.Oracle
