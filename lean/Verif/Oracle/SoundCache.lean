import Verif.Oracle.Cache
import Verif.Oracle.SoundFile
import Verif.Oracle.SoundBuffer
import Verif.Props.Cache
/-! # The executable forms of C91 follow from the theorems -/
namespace Scribe.Oracle
open Spec Props Buf TokenIter

variable {S : Segmenter} {A : Alloc} {b : Buf} {d : Doc}

theorem s_C91_cache (h : Reached S A b d) (as : List Turn) : o_C91_cache S A b d as = true := by
  simp only [o_C91_cache, imp_iff, okAnd_iff, Bool.and_eq_true, decide_eq_true_eq]
  intro hcb hs hc
  obtain ⟨t, ht, _⟩ : ∃ t, b.data.toStr = .ok t ∧ True := by
    obtain ⟨s, hs'⟩ := h.tri
    exact ⟨_, hs'.sim.face.data.toStr, trivial⟩
  obtain ⟨b', c', t', h1, h2, h3, h4⟩ := C91_cache A id as b d [] h hcb (fun v hv => hs _ hv v (by cases v <;> simp) rfl) hc t ht
    (fun e he => by cases he)
  refine ⟨(b', c'), h1, h2, t', h3, ?_⟩
  rw [rightB, List.all_eq_true]
  intro e he
  obtain ⟨x, hx, hx'⟩ := h4 e he
  rw [decide_eq_true_eq, hx, hx']; rfl

theorem s_C91_tokens {H : Highlighter} [DecidableEq H.Scopes] [DecidableEq H.Err] (hO : OffsetsOk H) (p x x' : Text) (n : Nat) :
    o_C91_tokens S H p x x' n = true := by
  simp only [o_C91_tokens, okAnd_iff]
  rcases C91_tokens (S := S) H hO p x x' with ⟨e, h1, h2⟩ | ⟨it, it', h1, h2, h3⟩
  · exact ⟨_, h1, _, h2, by simp⟩
  · refine ⟨_, h1, _, h2, ?_⟩
    simp only [okImp_iff, someImp_iff]
    rintro _ k1 ⟨ts, e⟩ rfl _ k2 ⟨ts', e'⟩ rfl
    rw [Bool.or_eq_true]
    rcases h3 ts ts' e e' (drain_collects n _ _ _ k1) (drain_collects n _ _ _ k2) with ⟨zs, r, r', rfl, rfl, hz⟩ | ⟨rfl, g1, g2⟩
    · left
      rw [List.any_eq_true]
      exact ⟨zs.length, by simp; omega, by simp [hz]⟩
    · right; simp [g1, g1 ▸ g2]

end Scribe.Oracle
