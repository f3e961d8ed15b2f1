import Verif.Oracle.Buffer
import Verif.Spec.Walk
/-! # Executable forms of C112 -/
namespace Scribe.Oracle
open Spec Buf

variable (S : Segmenter) (A : Alloc)

def o_C112_walk (b : Buf) (ms : List Cursor.Move) : Bool :=
  okImp b.data.toStr fun t => imp ('\r' ∉ t) <| imp (decide (b.data.inBounds S b.cursor.position = .ok true)) <|
    let c := walk (lengths S.segs t) b.cursor ms
    decide (execAll S A b (ms.map .move) = .ok { b with cursor := c }) && decide (b.data.inBounds S c.position = .ok true)

def o_C112_route (b : Buf) (p : Position) (ups lefts : Nat) : Bool :=
  okImp b.data.toStr fun t => imp ('\r' ∉ t) <| imp (decide (b.data.inBounds S b.cursor.position = .ok true)) <| imp (decide (b.data.inBounds S p = .ok true)) <|
    imp (decide (b.cursor.position.line ≤ ups ∧ (lengths S.segs t).getD p.line 0 ≤ lefts)) <|
      okAnd (execAll S A b ((route ups lefts p).map .move)) fun b' => decide (b'.cursor.position = p) && decide (b' = { b with cursor := b'.cursor })

def o_C112_lengths (b b' : Buf) (ms : List Cursor.Move) : Bool :=
  okImp b.data.toStr fun t => okImp b'.data.toStr fun t' => imp ('\r' ∉ t) <| imp ('\r' ∉ t') <| imp (decide (b.data.inBounds S b.cursor.position = .ok true)) <|
    imp (decide (b'.cursor = b.cursor ∧ (splitNl t).map (fun l => (S.segs l).length) = (splitNl t').map fun l => (S.segs l).length)) <|
      okAnd (execAll S A b (ms.map .move)) fun x => decide (x = { b with cursor := x.cursor }) && decide (execAll S A b' (ms.map .move) = .ok { b' with cursor := x.cursor })

end Scribe.Oracle
