import Verif.Oracle.Sheet
import Verif.Spec.Block
/-! # Executable forms of C113 -/
namespace Scribe.Oracle
open Spec Buf

variable (S : Segmenter) (A : Alloc) (T : Uax29.Table)

/-- The group `cs` makes `u` of `t`, as one step that can be undone and redone. -/
def oneStepB (b : Buf) (cs : List Cmd) (t u : Text) : Bool :=
  okAnd (execAll S A b (asGroup cs)) fun b1 => decide (b1.data.toStr = .ok u) && decide (b1.history.previous.length = b.history.previous.length + 1) &&
    okAnd (exec S A b1 .undo) fun b2 => decide (b2.data.toStr = .ok t) && okAnd (exec S A b2 .redo) fun b3 => decide (b3.data.toStr = .ok u)

def o_C113_indent (b : Buf) (s : Text) (ls : List Nat) : Bool :=
  okImp b.data.toStr fun t => imp (overB S T t = true) <| imp (overB S T s = true) <| imp (b.group = none) <| imp ('\r' ∉ t) <| imp ('\n' ∉ s) <| imp (ls ≠ []) <|
    imp (∀ l ∈ ls, l < (splitNl t).length) <| oneStepB S A b (indentCalls s ls) t (indented s ls t)

def o_C113_outdent (b : Buf) (n : Nat) (ls : List Nat) : Bool :=
  okImp b.data.toStr fun t => imp (overB S T t = true) <| imp (b.group = none) <| imp ('\r' ∉ t) <| imp (ls ≠ []) <|
    imp (∀ l ∈ ls, (((splitNl t)[l]?).map fun x => decide (n * ls.count l ≤ (S.segs x).length)).getD false = true) <|
      oneStepB S A b (outdentCalls n ls) t (outdented S.segs n ls t)

/-- With the lines named in reverse. -/
def o_C113_back (b : Buf) (s : Text) (ls : List Nat) : Bool :=
  okImp b.data.toStr fun t => imp (overB S T t = true) <| imp (overB S T s = true) <| imp ('\r' ∉ t) <| imp ('\n' ∉ s) <|
    imp (∀ l ∈ ls, l < (splitNl t).length) <|
      okAnd (execAll S A b (asGroup (indentCalls s ls) ++ asGroup (outdentCalls (S.segs s).length ls.reverse))) fun b1 => decide (b1.data.toStr = .ok t)

def o_C113_short (b : Buf) (l n : Nat) : Bool :=
  okImp b.data.toStr fun t => imp (b.group = none) <| imp ('\r' ∉ t) <| someImp (splitNl t)[l]? fun x => imp ((S.segs x).length < n) <|
    okAnd (exec S A b (.deleteRange ⟨l, 0⟩ ⟨l, n⟩)) fun b1 => decide (b1.data.toStr = .ok (unlines (deleteLines (splitNl t) l (l + 1)))) &&
      okAnd (exec S A b1 .undo) fun b2 => decide (b2.data.toStr = b1.data.toStr)

end Scribe.Oracle
