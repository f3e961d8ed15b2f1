import Verif.Oracle.Batch
import Verif.Spec.Meddle
/-! # Executable form of C66 -/
namespace Scribe.Oracle
open Spec Shared

variable (S : Segmenter) (A : Alloc) (T : Uax29.Table)

def o_C66_not_undone (k : Nat) (t s r : Text) : Bool :=
  imp (overB S T t = true ∧ overB S T s = true ∧ overB S T r = true ∧ '\n' ∉ s ∧ '\n' ∉ r) <|
    okAnd (Shared.Buf.execAll S A (meddle S A r) (Shared.Buf.fromContent A ⟨[], ()⟩ k t).2 (Shared.Buf.fromContent A ⟨[], ()⟩ k t).1
      [.setCallback true, .insert s, .setCallback false, .undo]) fun x =>
    okAnd (Shared.Buf.text x.2 x.1) fun y => decide (y.1 = ((S.segs (r ++ s ++ t)).drop (S.segs s).length).flatten) && (r.isEmpty || decide (y.1 ≠ t))

end Scribe.Oracle
