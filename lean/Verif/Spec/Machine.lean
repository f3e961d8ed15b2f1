import Verif.Model.Machine
/-! # Sessions in machine arithmetic and in unbounded arithmetic -/
namespace Scribe.Machine
open GapBuffer
variable [Word]

/-- Make a gap buffer and use it. -/
def gapSession (M : Mode) (S : Segmenter) (A : Alloc) (k : Nat) (t : Text) (cs : List Call) : R (List Obs × GapBuffer) := do
  let g ← new M A k t
  run M S A g cs

/-- Open a buffer with some content, or a new one, and use it. -/
def bufSession (M : Mode) (S : Segmenter) (A : Alloc) (k : Nat) (content : Option Text) (cs : List Buf.Cmd) : R Buf := do
  let b ← match content with
    | some t => fromContent M A k t
    | none => newBuf M A k
  execAll M S A b cs

/-- The buffer a session starts with. -/
def natStart (A : Alloc) (k : Nat) : Option Text → Buf
  | some t => Buf.fromContent A k t
  | none => Buf.new A k

/-- The same with unbounded arithmetic. -/
def natSession (S : Segmenter) (A : Alloc) (k : Nat) (content : Option Text) (cs : List Buf.Cmd) : R Buf :=
  Buf.execAll S A (natStart A k content) cs

/-! ## The vectors a session needs

With unbounded arithmetic every allocation succeeds. These are the gap buffers that such a session leaves behind one after the other: after each call,
and inside `undo` and `redo` after each edit taken back or made again. -/

/-- The edits of an entry of the history. -/
def editsOf : Op → List SOp
  | .simple op => [op]
  | .group ops => ops

/-- After each of these edits. -/
def ranVectors (S : Segmenter) (A : Alloc) (b : Buf) : List SOp → List GapBuffer
  | [] => []
  | op :: ops =>
    match Buf.runOp S A b op with
    | .ok (b', _) => b'.data :: ranVectors S A b' ops
    | .error _ => []

/-- After each of these edits has been taken back. -/
def undoneVectors (S : Segmenter) (A : Alloc) (b : Buf) : List SOp → List GapBuffer
  | [] => []
  | op :: ops =>
    match Buf.reverseOp S A b op with
    | .ok b' => b'.data :: undoneVectors S A b' ops
    | .error _ => []

/-- The vectors of one call. -/
def vectors (S : Segmenter) (A : Alloc) (b : Buf) : Buf.Cmd → List GapBuffer
  | .undo =>
    match b.group with
    | some (op :: ops) => undoneVectors S A { b with group := none } (op :: ops).reverse
    | _ =>
      match b.history.back.1 with
      | some o => undoneVectors S A { b with group := none, history := b.history.back.2 } (editsOf o).reverse
      | none => []
  | .redo =>
    match b.history.forth.1 with
    | some o => ranVectors S A { b with history := b.history.forth.2 } (editsOf o)
    | none => []
  | c =>
    match Buf.exec S A b c with
    | .ok b' => [b'.data]
    | .error _ => []

/-- The vectors of these calls. -/
def callVectors (S : Segmenter) (A : Alloc) (b : Buf) : List Buf.Cmd → List GapBuffer
  | [] => []
  | c :: cs =>
    vectors S A b c ++
      match Buf.exec S A b c with
      | .ok b' => callVectors S A b' cs
      | .error _ => []

/-- The vectors of a whole session, beginning with that of the new buffer. -/
def sessionVectors (S : Segmenter) (A : Alloc) (k : Nat) (content : Option Text) (cs : List Buf.Cmd) : List GapBuffer :=
  (natStart A k content).data :: callVectors S A (natStart A k content) cs

end Scribe.Machine
