import Verif.Oracle.Program
import Verif.Props.Session
import Verif.Props.Fields
import Verif.Props.Uninit
import Verif.Oracle.SoundBasic
/-! # The executable forms in `Verif/Oracle/Program.lean` follow from the theorems -/
namespace Scribe.Oracle
open Spec Props Workspace

variable {S : Segmenter} {A : Alloc}

theorem showsB_iff {ps : List Position} {b : FileBuf Nat} {x : Sheet Nat} (h : Shows S.segs (fun g p => g.inBounds S p) b x) : showsB S ps b x = true := by
  simp only [showsB, Bool.and_eq_true, decide_eq_true_eq, beq_iff_eq, List.all_eq_true]
  exact ⟨⟨⟨⟨⟨⟨⟨⟨⟨h.text, h.cursor⟩, h.log⟩, h.modified⟩, h.undo⟩, h.redo⟩, fun p _ => h.places p⟩, h.id⟩, h.path⟩, h.syn⟩

theorem pairwiseB_iff {α β : Type} {R : α → β → Prop} {r : α → β → Bool} (hr : ∀ a b, R a b → r a b = true) {as : List α} {bs : List β}
    (h : List.Forall₂ R as bs) : pairwiseB r as bs = true := by
  induction h with
  | nil => rfl
  | cons h _ ih => simp only [pairwiseB, ih, hr _ _ h, Bool.and_self]

theorem s_C74 (s : Syntaxes Nat) (root : Path) (as : List (Act Nat)) (ps : List Position) : o_C74_program S A s root as ps = true := by
  simp only [o_C74_program, someImp_iff, okAnd_iff]
  intro w0 h0
  obtain ⟨w, h1, h2, h3, h4, h5, h6⟩ := C74_program S A s _ root w0 h0 as
  refine ⟨_, h1, ?_⟩
  simp only [Bool.and_eq_true, decide_eq_true_eq, okAnd_iff]
  refine ⟨⟨⟨⟨⟨trivial, h2⟩, h3⟩, pairwiseB_iff (fun _ _ => showsB_iff) h4⟩, h5⟩, _, h6, ?_⟩
  cases (noSheets.acts S.segs A.grant s as).2.tabs.selected with
  | none => rfl
  | some x =>
    dsimp only
    cases hx : x.syn <;> simp [hx]

theorem s_C75 (k : Nat) (t : Text) (cs : List GapBuffer.Call) : o_C75_never_read S A k t cs = true := by
  obtain ⟨os, u, g, h1, h2, h3, h4, h5, h6, h7⟩ := C75_never_read S A k t cs
  simp only [o_C75_never_read, h1, h2, Bool.and_eq_true, decide_eq_true_eq]
  exact ⟨⟨⟨⟨⟨trivial, h3⟩, h4⟩, h5⟩, h6⟩, h7⟩

theorem s_C75' (x y : UInt8) (n k : Nat) (t : Text) (cs : List GapBuffer.Call) : o_C75_stale S x y n k t cs = true := by
  simp only [o_C75_stale, decide_eq_true_eq]
  exact C75_stale S _ _ (by simp) k t cs

theorem s_C76 (s : Syntaxes Nat) (root : Path) (cs : List (Step Nat)) : o_C76_fields A s root cs = true := by
  simp only [o_C76_fields, someImp_iff]
  intro w0 h0
  have h := C76_fields A s _ root w0 h0 cs
  cases hb : (Bench.new w0.path s).steps A cs with
  | none => rw [hb] at h; simp only [h]
  | some x =>
    obtain ⟨rs, b⟩ := x
    rw [hb] at h
    obtain ⟨w, h1, h2, h3, h4, h5, h6, h7⟩ := h
    simp only [h1, Bool.and_eq_true, decide_eq_true_eq]
    exact ⟨⟨⟨⟨⟨⟨trivial, h2⟩, h3⟩, h4⟩, h5⟩, h6⟩, h7⟩

end Scribe.Oracle
