import Verif.Oracle.Buffer
import Verif.Spec.Stray
/-! # Executable forms of C117 -/
namespace Scribe.Oracle
open Spec Buf

variable (S : Segmenter) (A : Alloc)

def o_C117_walk (b : Buf) (c : Cursor) (ms : List Cursor.Move) : Bool :=
  okImp b.data.toStr fun t => imp ('\r' ∉ t) <|
    decide (execAll S A { b with cursor := c } (ms.map .move) = .ok { b with cursor := stray (lengths S.segs t) c ms })

def o_C117_key (b : Buf) (c : Cursor) (m : Cursor.Move) : Bool :=
  okImp b.data.toStr fun t => imp ('\r' ∉ t) <| imp (decide (b.data.inBounds S c.position = .ok false)) <|
    let r := rescues (lengths S.segs t) c.position m
    okAnd (exec S A { b with cursor := c } (.move m)) fun b' => decide (b' = { b with cursor := b'.cursor }) &&
      decide (b.data.inBounds S b'.cursor.position = .ok r) && imp (decide (r = false)) (decide (b'.cursor = c))

def o_C117_below (b : Buf) (c : Cursor) (ms : List Cursor.Move) : Bool :=
  okImp b.data.toStr fun t => imp ('\r' ∉ t) <| imp (decide ((splitNl t).length < c.position.line)) <| imp (decide (∀ m ∈ ms, Relative m)) <|
    decide (execAll S A { b with cursor := c } (ms.map .move) = .ok { b with cursor := c })

def o_C117_beside (b : Buf) (c : Cursor) (ms : List Cursor.Move) : Bool :=
  okImp b.data.toStr fun t => imp ('\r' ∉ t) <| imp ('\n' ∉ t) <| imp (decide (c.position.line = 0 ∧ (S.segs t).length + 1 < c.position.offset)) <|
    imp (decide (∀ m ∈ ms, Arrow m)) <| decide (execAll S A { b with cursor := c } (ms.map .move) = .ok { b with cursor := c })

def o_C117_home (b : Buf) (c : Cursor) : Bool :=
  okImp b.data.toStr fun t => imp ('\r' ∉ t) <|
    decide (execAll S A { b with cursor := c } [.move .firstLine, .move .startOfLine] = .ok { b with cursor := ⟨⟨0, 0⟩, 0⟩ })

end Scribe.Oracle
