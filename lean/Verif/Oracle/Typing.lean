import Verif.Oracle.Rest
import Verif.Spec.Typing
/-! # Executable forms of C85 -/
namespace Scribe.Oracle
open Spec Props Buf

variable (S : Segmenter) (A : Alloc) (T : Uax29.Table)

/-- The clusters before and after the cursor, in ordinary text. -/
def around (b : Buf) (f : List Text → List Text → Bool) : Bool :=
  okImp b.data.toStr fun t => imp (overB S T t = true) <|
    match locate (S.segs t) b.cursor.position with
    | some (x, y) => f x y
    | none => true

def o_C13_undo_edits (b : Buf) (d : Doc) (cs : List Cmd) : Bool :=
  imp (b.group = none) <| imp (CleanCmds S.segs d cs) <| imp (∀ c ∈ cs, IsEdit c ∨ Passive c) <|
    okAnd (execAll S A b cs) fun b1 => decide (b1.history.previous.length = b.history.previous.length + countEdits cs) &&
      okAnd (execAll S A b1 (List.replicate (countEdits cs) .undo)) fun b2 => decide (b2.data.toStr = b.data.toStr) &&
        decide (b2.history.previous.length = b.history.previous.length) &&
        okAnd (execAll S A b2 (List.replicate (countEdits cs) .redo)) fun b3 => decide (b3.data.toStr = b1.data.toStr)

/-- For the segmenter of the table; the buffer is reached by clean calls. -/
def o_C85_typing (b : Buf) (s : Text) : Bool :=
  around S T b fun x y => imp (overB S T s = true) <|
    (okAnd (execAll S A b (typeText S.segs s)) fun b' => decide (b'.data.toStr = .ok (x.flatten ++ s ++ y.flatten)) &&
      decide (b'.cursor.position = endPos (S.segs (x.flatten ++ s)))) &&
    okAnd (exec S A b (.insert s)) fun b' => decide (b'.data.toStr = .ok (x.flatten ++ s ++ y.flatten))

def o_C85_undo_typing (b : Buf) (s : Text) : Bool :=
  around S T b fun x y => imp (overB S T s = true) <| imp (b.group = none) <|
    okAnd (execAll S A b (typeText S.segs s)) fun b1 => decide (b1.history.previous.length = b.history.previous.length + (S.segs s).length) &&
      okAnd (execAll S A b1 (List.replicate (S.segs s).length .undo)) fun b2 => decide (b2.data.toStr = .ok (x.flatten ++ y.flatten)) &&
        okAnd (execAll S A b2 (List.replicate (S.segs s).length .redo)) fun b3 => decide (b3.data.toStr = .ok (x.flatten ++ s ++ y.flatten))

def o_C85_erasing (b : Buf) (n : Nat) : Bool :=
  around S T b fun x y =>
    okAnd (backspaces S A b (x.drop n).length) fun b' => decide (b'.data.toStr = .ok ((x.take n).flatten ++ y.flatten)) &&
      decide (b'.cursor.position = endPos (x.take n))

def o_C85_deleting (b : Buf) (n : Nat) : Bool :=
  around S T b fun x y =>
    okAnd (execAll S A b (List.replicate n .delete)) fun b' => decide (b'.data.toStr = .ok (x.flatten ++ (y.drop n).flatten)) &&
      decide (b'.cursor = b.cursor)

end Scribe.Oracle
