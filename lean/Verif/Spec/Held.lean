import Verif.Model.Buffer
/-! # The bytes that a buffer keeps for undo and redo -/
namespace Scribe.Spec
open Buf

/-- The bytes of the strings in an operation: an insertion keeps what was inserted, a deletion what was deleted, a replacement both contents. -/
def sopBytes : SOp → Nat
  | .insert s _ => blen s
  | .delete c _ => (c.map blen).getD 0
  | .replace old new => blen old + blen new

def sopsBytes (ops : List SOp) : Nat := (ops.map sopBytes).sum

def opBytes : Op → Nat
  | .simple op => sopBytes op
  | .group ops => sopsBytes ops

def opsBytes (ops : List Op) : Nat := (ops.map opBytes).sum

/-- All that a buffer keeps: what can be undone, what can be redone, and the open group. -/
def held (b : Buf) : Nat := opsBytes b.history.previous + opsBytes b.history.next + sopsBytes (b.group.getD [])

variable (S : Segmenter) (A : Alloc)

/-- The bytes of what `read` returns for the range. -/
def readBytes (b : Buf) (p q : Position) : Nat :=
  match b.data.read S (Range.new p q) with
  | .ok (some s) => blen s
  | _ => 0

/-- What a call adds. A deletion adds what reading its range returns, so nothing if its end is out of bounds; an insertion its string, also out of bounds; a replacement
and a reload that change the text the contents before and after. -/
def adds (b : Buf) : Cmd → Nat
  | .insert s => blen s
  | .delete =>
    let p := b.cursor.position
    match b.data.inBounds S ⟨p.line, p.offset + 1⟩ with
    | .ok true => readBytes S b p ⟨p.line, p.offset + 1⟩
    | _ => readBytes S b p ⟨p.line + 1, 0⟩
  | .deleteRange p q => readBytes S b p q
  | .replace c | .reload c =>
    match b.data.toStr with
    | .ok t => if c = t then 0 else blen t + blen c
    | _ => 0
  | _ => 0

/-- What a call gives up: an edit outside of groups, and closing a group that is not empty, what could be redone; undo what is in the open group. -/
def givesUp (b : Buf) : Cmd → Nat
  | .insert _ | .delete | .deleteRange _ _ => if b.group.isNone then opsBytes b.history.next else 0
  | .replace c | .reload c =>
    match b.data.toStr with
    | .ok t => if c = t ∨ b.group.isSome then 0 else opsBytes b.history.next
    | _ => 0
  | .endGroup => if (b.group.getD []).isEmpty then 0 else opsBytes b.history.next
  | .undo => sopsBytes (b.group.getD [])
  | _ => 0

/-- The sums over a sequence of calls. -/
def ledger (b : Buf) : List Cmd → R (Nat × Nat)
  | [] => .ok (0, 0)
  | c :: cs => do
    let b' ← exec S A b c
    let (x, y) ← ledger b' cs
    .ok (adds S b c + x, givesUp b c + y)

end Scribe.Spec
