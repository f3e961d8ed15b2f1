import Verif.Oracle.Rest
import Verif.Spec.Batch
/-! # Executable forms of C88 and C89 -/
namespace Scribe.Oracle
open Spec Props Buf

variable (S : Segmenter) (A : Alloc) (T : Uax29.Table)

/-- What is asked of text and edits. -/
def batchB (b : Buf) (ps : List Piece) (rest : Text) (f : Bool) : Bool :=
  imp (b.data.toStr = .ok (source ps rest)) <| imp (overB S T rest = true) <|
    imp ((ps.all fun p => overB S T p.keep && overB S T p.old && overB S T p.new) = true) f

def o_C88_backward (b : Buf) (ps : List Piece) (rest : Text) : Bool :=
  batchB S T b ps rest (okAnd (execAll S A b (backward S.segs [] ps)) fun b' => decide (b'.data.toStr = .ok (target ps rest)))

def o_C88_forward (b : Buf) (ps : List Piece) (rest : Text) : Bool :=
  batchB S T b ps rest (okAnd (execAll S A b (forward S.segs [] ps)) fun b' => decide (b'.data.toStr = .ok (target ps rest)))

def o_C88_undo (b : Buf) (ps : List Piece) (rest : Text) : Bool :=
  batchB S T b ps rest <| imp (b.group = none ∧ ps ≠ []) <|
    okAnd (execAll S A b (.startGroup :: backward S.segs [] ps ++ [.endGroup])) fun b1 =>
      decide (b1.data.toStr = .ok (target ps rest)) && decide (b1.history.previous.length = b.history.previous.length + 1) &&
      okAnd (exec S A b1 .undo) fun b2 => decide (b2.data.toStr = .ok (source ps rest)) &&
        okAnd (exec S A b2 .redo) fun b3 => decide (b3.data.toStr = .ok (target ps rest))

/-- Clusters `i` to `j` are cut and pasted before cluster `k` of what remains. -/
def o_C89_cut_paste (b : Buf) (i j k : Nat) : Bool :=
  okImp b.data.toStr fun t => imp (overB S T t = true) <|
    let cs := S.segs t
    let x := (cs.take i).flatten
    let s := ((cs.drop i).take j).flatten
    let r := cs.take i ++ (cs.drop i).drop j
    let z := (r.take k).flatten
    let w := (r.drop k).flatten
    decide (b.data.read S (Range.new (endPos (S.segs x)) (endPos (S.segs (x ++ s)))) = .ok (some s)) &&
    (okAnd (execAll S A b (cutPaste S.segs x s z)) fun b' => decide (b'.data.toStr = .ok (z ++ s ++ w))) &&
    imp (b.group = none) (okAnd (execAll S A b (.startGroup :: cutPaste S.segs x s z ++ [.endGroup])) fun b1 =>
      decide (b1.data.toStr = .ok (z ++ s ++ w)) &&
      okAnd (exec S A b1 .undo) fun b2 => decide (b2.data.toStr = .ok t) &&
        okAnd (exec S A b2 .redo) fun b3 => decide (b3.data.toStr = .ok (z ++ s ++ w)))

end Scribe.Oracle
