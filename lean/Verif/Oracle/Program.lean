import Verif.Oracle.Rest
import Verif.Spec.Session
import Verif.Spec.Fields
import Verif.Model.Uninit
/-! # Executable forms of C74, C75 and C76 -/
namespace Scribe.Oracle
open Spec Props Workspace

variable (S : Segmenter) (A : Alloc)

/-- `Shows` as a function, with some positions to be tried. -/
def showsB (ps : List Position) (b : FileBuf Nat) (x : Sheet Nat) : Bool :=
  decide (b.buf.data.toStr = .ok x.doc.zip.text) && decide (b.buf.cursor = x.doc.cursor) && decide (b.buf.log = x.doc.log) &&
  b.buf.modified == decide (x.doc.mark ≠ some x.doc.undo.length) && decide (b.buf.history.previous.length = x.doc.undo.length) &&
  decide (b.buf.history.next.length = x.doc.redo.length) && ps.all (fun p => decide (b.buf.data.inBounds S p = .ok (x.doc.zip.has S.segs p))) &&
  decide (b.id = x.id) && decide (b.path = x.path) && decide (b.syn = x.syn)

/-- Two lists are related element by element. -/
def pairwiseB {α β : Type} (r : α → β → Bool) : List α → List β → Bool
  | [], [] => true
  | a :: as, b :: bs => r a b && pairwiseB r as bs
  | _, _ => false

def o_C74_program (s : Syntaxes Nat) (root : Path) (as : List (Act Nat)) (ps : List Position) : Bool :=
  someImp (Workspace.new (fsOf none (some root)) root (some s)) fun w0 =>
    let r := noSheets.acts S.segs A.grant s as
    let e := r.2
    okAnd (w0.acts S A as) fun (rs, w) =>
      decide (rs = r.1) && decide (w.currentBufferIndex = (if e.tabs.items.isEmpty then none else some e.tabs.sel)) &&
      decide (w.current = (contents w)[e.tabs.sel]?) && pairwiseB (showsB S ps) (contents w) e.tabs.items &&
      decide (w.bufferPaths = e.tabs.items.map (fun x => x.path.map fun p => if w0.path <+: p then p.drop w0.path.length else p)) &&
      okAnd w.currentBufferTokens (fun t =>
        match t, e.tabs.selected with
        | .error .emptyWorkspace, none => true
        | .error .missingSyntax, some x => x.syn.isNone
        | .ok (t, y), some x => decide (t = x.doc.zip.text) && decide (x.syn = some y)
        | _, _ => false)

def o_C75_never_read (k : Nat) (t : Text) (cs : List GapBuffer.Call) : Bool :=
  match Uninit.run S A (Uninit.new A k t) cs, GapBuffer.run S A (GapBuffer.new A k t) cs with
  | .ok (os, u), .ok (os', g) =>
    decide (os = os') && decide (u.gapStart = g.gapStart) && decide (u.gapLength = g.gapLength) && decide (u.data.length = g.data.length) &&
    decide (u.data.take u.gapStart = (g.data.take g.gapStart).map some) &&
    decide (u.data.drop (u.gapStart + u.gapLength) = (g.data.drop (g.gapStart + g.gapLength)).map some)
  | _, _ => false

/-- With spare memory full of `x` or of `y`. -/
def o_C75_stale (x y : UInt8) (n k : Nat) (t : Text) (cs : List GapBuffer.Call) : Bool :=
  let A : Alloc := ⟨fun _ _ m => List.replicate (m + n) x, fun _ _ m => by simp⟩
  let B : Alloc := ⟨fun _ _ m => List.replicate (m + n) y, fun _ _ m => by simp⟩
  decide ((GapBuffer.run S A (GapBuffer.new A k t) cs).map (·.1) = (GapBuffer.run S B (GapBuffer.new B k t) cs).map (·.1))

def o_C76_fields (s : Syntaxes Nat) (root : Path) (cs : List (Step Nat)) : Bool :=
  someImp (Workspace.new (fsOf none (some root)) root (some s)) fun w0 =>
    match (Bench.new w0.path s).steps A cs, w0.steps A cs with
    | none, .error .unwrap => true
    | some (rs, b), .ok (rs', w) =>
      decide (rs' = rs) && decide (w.current = b.current) && decide (w.currentBufferIndex = (if b.desk.tabs.items.isEmpty then none else some b.desk.tabs.sel)) &&
      decide (contents w = b.desk.tabs.items) && decide (w.path = b.path) &&
      decide (w.currentBufferPath = (b.current.bind (·.path)).map (shownPath b.path)) &&
      decide (w.bufferPaths = b.desk.tabs.items.map fun x => x.path.map (shownPath b.path))
    | _, _ => false

end Scribe.Oracle
