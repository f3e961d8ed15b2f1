import Verif.Model.Editor
import Verif.Spec.Workspace
import Verif.Spec.Doc
/-! # Conditions on programs with a disk -/
namespace Scribe.Spec
open Props
variable {σ : Type}

/-- `CleanCmd` for a buffer with contents `t`. -/
def CleanFor (segs : Text → List Text) (b : Buf) (t : Text) : Buf.Cmd → Prop
  | .insert s => CleanInsert segs t s b.cursor.position ∧ ['\r', '\n'] ∉ segs s
  | .delete => CleanDelete segs t b.cursor.position (Doc.deleteEnd segs t b.cursor.position)
  | .deleteRange p q => CleanRange segs t (lo p q) (hi p q)
  | .redo => b.history.next = [] ∨ b.group = none ∨ b.group = some []
  | _ => True

/-- No edits are pending in an open group. -/
def Quiet (b : Buf) : Prop := b.group = none ∨ b.group = some []

/-- A canonical path. -/
def Canonical (W : FileTree) (p : Path) : Prop := ∃ n, W.slot p = some n ∧ W.real p = p

/-- Every file has only one canonical path. -/
def NoHardLinks (W : FileTree) : Prop := ∀ p q n, W.slot p = some n → W.slot q = some n → W.real p = W.real q

/-- What the program has to take care of:
* calls on buffers are clean, and loading and saving are done by `save` and `reload`;
* saves are made without pending edits, reloads without an open group;
* a save that got as far as emptying the file succeeds; with a new path it succeeds in any case, and the path is canonical and that of no other buffer. -/
def Careful (S : Segmenter) (W : FileTree) (e : Editor σ) : Deed σ → Prop
  | .cmd c => c ≠ .saved ∧ (∀ x, c ≠ .reload x) ∧ ∀ b t, e.ws.current = some b → b.buf.data.toStr = .ok t → CleanFor S.segs b.buf t c
  | .save env => ∀ b, e.ws.current = some b → Quiet b.buf ∧ ∀ r, b.save (W.env b.path env) e.disk = .ok r → r.2.1 = .ok ∨ r.1 = []
  | .saveAs p env => Canonical W p ∧ (∀ i x, (contents e.ws)[i]? = some x → x.path = some p → e.ws.index = some i) ∧
      ∀ b, e.ws.current = some b → Quiet b.buf ∧ ∀ r, { b with path := some p }.save (W.env (some p) env) e.disk = .ok r → r.2.1 = .ok
  | .reload _ => ∀ b, e.ws.current = some b → b.buf.group = none
  | _ => True

/-- Careful at every step. -/
def CarefulAll (S : Segmenter) (A : Alloc) (W : FileTree) (e : Editor σ) : List (Deed σ) → Prop
  | [] => True
  | a :: as => Careful S W e a ∧ ∀ e', e.step S A W a = .ok e' → CarefulAll S A W e' as

end Scribe.Spec
