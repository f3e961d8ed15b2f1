import Verif.Oracle.Buffer
import Verif.Spec.Recipe
/-! # Executable forms of C67–C69 -/
namespace Scribe.Oracle
open Spec Props Buf

variable (S : Segmenter) (A : Alloc)

def o_C67_zipper (k : Nat) (t : Text) (cs : List GapBuffer.Call) : Bool :=
  let z := Zip.run S.segs A.grant ⟨t, [], blen t + A.grant k (blen t) 0, k + 1⟩ cs
  okAnd (GapBuffer.run S A (GapBuffer.new A k t) cs) fun (os, g) =>
    decide (os = z.1) && decide (g.toStr = .ok (z.2.left ++ z.2.right)) && decide (g.gapStart = blen z.2.left) && decide (g.gapLength = z.2.room) &&
    decide (g.data.length = z.2.size) && decide (g.data.take g.gapStart = enc z.2.left) && decide (g.data.drop (g.gapStart + g.gapLength) = enc z.2.right)

def o_C67_memory (k : Nat) (t : Text) (cs : List GapBuffer.Call) (c : GapBuffer.Call) : Bool :=
  okImp (GapBuffer.run S A (GapBuffer.new A k t) cs) fun (_, g) => okImp (GapBuffer.run S A (GapBuffer.new A k t) (cs ++ [c])) fun (_, g') =>
    okAnd g.toStr fun u => okAnd g'.toStr fun u' =>
      decide (g.gapLength + blen u = g.data.length) && decide (g'.gapLength + blen u' = g'.data.length) &&
      (decide (g'.data.length = g.data.length) ||
        match c with
        | .insert s _ => decide (g.data.length < blen u + blen s) && decide (g.data.length + blen s ≤ g'.data.length)
        | _ => false)

/-- A buffer with this content, or a new one. -/
def begin' (k : Nat) (t : Option Text) : Buf := match t with | some t => Buf.fromContent A k t | none => Buf.new A k

def o_C68_recipes (k : Nat) (t : Option Text) (cs : List Cmd) (p : Position) : Bool :=
  let d := (ZDoc.new A.grant k (t.getD []) t.isSome).steps S.segs A.grant cs
  okAnd (execAll S A (begin' A k t) cs) fun b =>
    decide (b.data.toStr = .ok d.zip.text) && decide (b.cursor = d.cursor) && decide (b.log = d.log) &&
    decide (b.modified = decide (d.mark ≠ some d.undo.length)) && decide (b.history.previous.length = d.undo.length) &&
    decide (b.history.next.length = d.redo.length) && decide (b.data.inBounds S p = .ok (d.zip.has S.segs p))

instance : DecidablePred Swaps := fun c => by cases c <;> unfold Swaps <;> infer_instance
instance : DecidablePred MovesCursor := fun c => by cases c <;> unfold MovesCursor <;> infer_instance

def o_C69_edits_leave_cursor (k : Nat) (t : Option Text) (cs cs' : List Cmd) : Bool :=
  imp (∀ c ∈ cs ++ cs', ¬ Swaps c) <| imp (∀ c ∈ cs', ¬ MovesCursor c) <|
    okImp (execAll S A (begin' A k t) cs) fun b => okImp (execAll S A b cs') fun b' => decide (b'.cursor = b.cursor)

def o_C69_typing_lost (b : Buf) (d : Doc) (ss : List Text) : Bool :=
  imp (b.group = none) <| imp (exists? S.segs d.text b.cursor.position = false) <|
    okAnd (execAll S A b (ss.map .insert)) fun b' =>
      decide (b'.data.toStr = .ok d.text) && decide (b'.cursor = b.cursor) &&
      decide (b'.history.previous.length = b.history.previous.length + ss.length) &&
      decide (b'.log = b.log ++ (if b.callback then List.replicate ss.length b.cursor.position else []))

end Scribe.Oracle
