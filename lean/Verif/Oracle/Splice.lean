import Verif.Oracle.Block
import Verif.Spec.Splice
/-! # Executable forms of C115 -/
namespace Scribe.Oracle
open Spec Buf

variable (S : Segmenter) (A : Alloc) (T : Uax29.Table)

def o_C115_replace (b : Buf) (i j : Nat) (s : Text) : Bool :=
  okImp b.data.toStr fun t => imp (overB S T t = true) <| imp (overB S T s = true) <| imp (b.group = none) <| imp ('\r' ∉ t) <| imp ('\r' ∉ s) <| imp (i ≤ j) <|
    someImp (splitNl t)[j]? fun last =>
      oneStepB S A b (spliceCalls i j (S.segs last).length s) t (unlines (spliced (splitNl t) i j (splitNl s))) &&
        okAnd (execAll S A b (asGroup (spliceCalls i j (S.segs last).length s))) fun b1 => decide (b1.cursor = ⟨⟨i, 0⟩, 0⟩)

def o_C115_rearrange (b : Buf) (i j : Nat) (new : List Text) : Bool :=
  okImp b.data.toStr fun t => imp (overB S T t = true) <| imp (b.group = none) <| imp ('\r' ∉ t) <| imp (i ≤ j) <| imp (new ≠ []) <| imp (∀ l ∈ new, l ∈ splitNl t) <|
    someImp (splitNl t)[j]? fun last =>
      okAnd (execAll S A b (asGroup (spliceCalls i j (S.segs last).length (unlines new)))) fun b1 =>
        (okAnd b1.data.toStr fun u => decide (splitNl u = spliced (splitNl t) i j new)) && okAnd (exec S A b1 .undo) fun b2 => decide (b2.data.toStr = .ok t)

end Scribe.Oracle
