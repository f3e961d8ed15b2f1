import Verif.Oracle.Rest
import Verif.Spec.Windows
/-! # Executable forms of C100 -/
namespace Scribe.Oracle
open Spec Props

variable (S : Segmenter) (A : Alloc) (T : Uax29.Table)

/-- `Over` for ordinary clusters and CRLF, as a function. -/
def overCrlfB (t : Text) : Bool := (S.segs t).all fun c => decide (Uax29.Ordinary T.cls c) || decide (c = ['\r', '\n'])

/-- Every CR is followed by LF, as a function. -/
def pairedB : Text → Bool
  | [] => true
  | c :: t => (decide (c ≠ '\r') || decide (t.head? = some '\n')) && pairedB t

/-- For the segmenter of the table. -/
def o_C100_clusters (ts : List Text) : Bool :=
  imp ((ts.all fun c => decide (Uax29.Ordinary T.cls c) || decide (c = ['\r', '\n'])) = true) <| decide (S.segs ts.flatten = ts)

def o_C100_gap_buffer (k : Nat) (t : Text) (cs : List GapBuffer.Call) : Bool :=
  imp (overCrlfB S T t = true) <| imp ((inserted cs).all (overCrlfB S T) = true) <| okAnd (GapBuffer.run S A (GapBuffer.new A k t) cs) fun (os, g) =>
    decide (os = (runText S.segs t cs).1) && decide (g.toStr = .ok (runText S.segs t cs).2) && overCrlfB S T (runText S.segs t cs).2

def windowsTypingB : Buf.Cmd → Bool
  | .insert s => overB S T s
  | .replace s | .reload s => overCrlfB S T s
  | .deleteRange _ _ | .startGroup => false
  | _ => true

def o_C100_editing_session (content : Option Text) (cs : List Buf.Cmd) (k : Nat) : Bool :=
  let (b0, d0, t0) := startOf A content
  imp (overCrlfB S T t0 = true) <| imp (cs.all (windowsTypingB S T) = true) <|
    (okAnd (Buf.execAll S A b0 cs) fun b => decide (b.data.toStr = .ok (snaps S.segs d0 (Snap.new t0) cs).present) &&
      pairedB (snaps S.segs d0 (Snap.new t0) cs).present &&
      imp (b.modified = false) (someAnd (lastSync S.segs d0 (if b0.modified then none else some t0) cs) fun t => decide (b.data.toStr = .ok t))) &&
    okAnd (Buf.execAll S A b0 (cs ++ List.replicate (cs.length + k) .undo)) fun b => decide (b.data.toStr = .ok t0)

/-- For a buffer reached by clean calls, with its document. -/
def o_C100_delete_crlf (b : Buf) (d : Doc) : Bool :=
  imp (b.group = none) <| imp (overCrlfB S T d.text = true) <| someImp (locate (S.segs d.text) b.cursor.position) fun (x, y) =>
    match y with
    | ['\r', '\n'] :: y =>
      (okAnd (Buf.exec S A b .delete) fun b' => decide (b'.data.toStr = .ok (x.flatten ++ y.flatten)) && decide (b'.cursor = b.cursor)) &&
      okAnd (Buf.execAll S A b [.delete, .undo]) fun b' => decide (b'.data.toStr = .ok (x.flatten ++ '\r' :: '\n' :: y.flatten))
    | _ => true

/-- For a buffer reached by clean calls, with its document. -/
def o_C100_paste_undo (b : Buf) (d : Doc) (s : Text) : Bool :=
  imp (b.group = none) <| imp (overCrlfB S T d.text = true) <| imp (overCrlfB S T s = true) <|
    someImp (locate (S.segs d.text) b.cursor.position) fun (x, y) => someImp (splitNl s).getLast? fun last =>
      let k := (S.segs s).count ['\r', '\n']
      imp (1 ≤ k) <| okAnd (Buf.execAll S A b [.insert s, .undo]) fun b' =>
        decide (b'.data.toStr = .ok (x.flatten ++ (afterEnd y ⟨k, (S.segs last).length⟩).flatten))

/-- For a buffer reached by clean calls, with its document. -/
def o_C51_movement (b : Buf) (d : Doc) (m : Cursor.Move) : Bool :=
  let cs := S.segs d.text
  imp (crlfOnlyB d.text = true) <| imp (['\r', '\n'] ∈ cs) <| imp (b.cursor.position.line = 0 ∧ b.cursor.position.offset ≤ cs.length) <|
    okAnd (Buf.exec S A b (.move m)) fun b' =>
      decide (b'.cursor.position = ⟨0, crlfColumn (cs.takeWhile (· != ['\r', '\n'])).length cs.length b.cursor.position.offset b.cursor.sticky m⟩)

end Scribe.Oracle
