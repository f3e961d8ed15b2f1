import Verif.Oracle.Rest
import Verif.Spec.Sheet
/-! # Executable forms of C92 and C93 -/
namespace Scribe.Oracle
open Spec Props Buf

variable (S : Segmenter) (A : Alloc) (T : Uax29.Table)

def fitB (s : LineEditor) : Cmd → Bool
  | .insert t | .replace t | .reload t => overB S T t
  | .deleteRange p q => s.page.has (hi p q) || !s.page.has (lo p q)
  | .redo => decide (s.redo = []) || decide (s.group = none) || decide (s.group = some [])
  | _ => true

def fitAllB (s : LineEditor) : List Cmd → Bool
  | [] => true
  | c :: cs => fitB S T s c && fitAllB (s.step S.segs c) cs

def o_C92_lines (content : Option Text) (cs : List Cmd) (p q : Position) : Bool :=
  let (b0, _, t0) := startOf A content
  let s0 := LineEditor.new (rows (S.segs t0)) (!b0.modified)
  imp (overB S T t0 = true) <| imp (fitAllB S T s0 cs = true) <|
    let s := s0.steps S.segs cs
    okAnd (execAll S A b0 cs) fun b => decide (b.data.toStr = .ok s.page.text) && decide (b.cursor = s.cursor) && decide (b.modified = s.modified) &&
      decide (b.lineCount = .ok s.page.length) && decide (b.data.inBounds S p = .ok (s.page.has p)) &&
      decide (b.data.read S (Range.new p q) = .ok ((s.page.between (lo p q) (hi p q)).map Page.text))

/-- Edits in the order of `es` and with those of the first line first. -/
def o_C93 (b : Buf) (es : List RowEdit) : Bool :=
  okImp b.data.toStr fun t => imp (overB S T t = true) <|
    let L := rows (S.segs t)
    imp ((es.all fun e => overB S T e.put && !e.put.contains '\n' && decide (e.line < L.length)) = true) <|
    imp (((List.range L.length).all fun i => decide (RowEdit.Allowed S.segs (L[i]?.getD []) (RowEdit.ofLine es i))) = true) <|
    let want := Page.text (L.mapIdx fun i r => (RowEdit.ofLine es i).foldl (RowEdit.on S.segs) r)
    okAnd (execAll S A b (es.flatMap RowEdit.calls)) fun b' => decide (b'.data.toStr = .ok want) &&
      okAnd (execAll S A b (((es.filter fun e => e.line == 0) ++ es.filter fun e => !(e.line == 0)).flatMap RowEdit.calls)) fun b' => decide (b'.data.toStr = .ok want)

end Scribe.Oracle
