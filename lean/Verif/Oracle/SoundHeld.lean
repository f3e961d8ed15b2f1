import Verif.Oracle.Held
import Verif.Oracle.SoundShared
import Verif.Props.Held
/-! # The executable forms of C105 follow from the theorems -/
namespace Scribe.Oracle
open Spec Buf Props

variable {S : Segmenter} {A : Alloc}

theorem s_C105_ledger (k : Nat) (t : Option Text) (cs : List Cmd) : o_C105_ledger S A k t cs = true := by
  simp only [o_C105_ledger, okAnd_iff, decide_eq_true_eq]
  cases t with
  | none =>
    obtain ⟨⟨b, x, y, h1, h2, h3⟩, -⟩ := C105_ledger S A k [] cs
    exact ⟨b, h1, (x, y), h2, h3⟩
  | some t =>
    obtain ⟨-, b, x, y, h1, h2, h3⟩ := C105_ledger S A k t cs
    exact ⟨b, h1, (x, y), h2, h3⟩

theorem s_C105_still (k : Nat) (t : Text) (cs : List Cmd) (c : Cmd) : o_C105_still S A k t cs c = true := by
  obtain ⟨b, h1, hs⟩ := execAll_safe (S := S) (A := A) cs (sane_fromContent k t)
  obtain ⟨b', h2, -⟩ := exec_safe (S := S) (A := A) hs c
  simp only [o_C105_still, okAnd_iff]
  refine ⟨b, h1, b', h2, ?_⟩
  cases he : editing c with
  | true => rfl
  | false =>
    have hc : ¬ Edit' c := by intro h; cases c <;> simp [editing, Edit'] at he h
    obtain ⟨k1, k2⟩ := C105_still S A k t cs c b b' h1 hc h2
    simp only [Bool.false_or, Bool.and_eq_true, imp_iff, decide_eq_true_eq]
    exact ⟨k1, fun h => k2 h.1 h.2⟩

theorem s_C105_without_undo (k : Nat) (t : Text) (cs : List Cmd) : o_C105_without_undo S A k t cs = true := by
  simp only [o_C105_without_undo, imp_iff, okAnd_iff, Bool.and_eq_true, decide_eq_true_eq]
  intro hc
  obtain ⟨b, x, h1, h2, h3⟩ := C105_without_undo S A k t cs hc
  exact ⟨b, h1, (x, 0), h2, rfl, h3⟩

theorem s_C105_reload (k : Nat) (t c : Text) (cs : List Cmd) : o_C105_reload S A k t c cs = true := by
  simp only [o_C105_reload, imp_iff, okAnd_iff, decide_eq_true_eq]
  intro hc
  obtain ⟨b, h1, hs⟩ := execAll_safe (S := S) (A := A) cs (sane_fromContent k t)
  obtain ⟨u, hu⟩ := hs.toStr
  obtain ⟨b', h2, -⟩ := exec_safe (S := S) (A := A) hs (.reload c)
  exact ⟨b, h1, u, hu, fun hne => ⟨b', h2, C105_reload S A k t u c cs hc b b' h1 hu hne h2⟩⟩

theorem s_C105_deleted (k : Nat) (t : Text) (p q : Position) : o_C105_deleted S A k t p q = true := by
  simp only [o_C105_deleted, imp_iff, okAnd_iff, decide_eq_true_eq]
  intro hp hq
  obtain ⟨b', h2, -⟩ := exec_safe (S := S) (A := A) (sane_fromContent k t) (.deleteRange p q)
  obtain ⟨t', h3, h4⟩ := C105_deleted S A (Buf.fromContent A k t) b' t p q (GapBuffer.holds_new _ _) hp hq h2
  exact ⟨b', h2, t', h3, h4⟩

end Scribe.Oracle
