import Verif.Model.Guarded
import Verif.Spec.Unwind
import Verif.Model.Shared
/-! # Words for C110 -/
namespace Scribe.Guarded
open Scribe.Buf (Cmd)
open Unwind (undone undoneHistory)

/-- The edit makes a new gap buffer instead of changing the one there is. -/
def fresh : SOp → Bool
  | .replace _ _ => true
  | _ => false

/-- Taking the edit back does nothing: a deletion that deleted nothing. -/
def idle : SOp → Bool
  | .delete none _ => true
  | _ => false

/-- The edits of a step. -/
def edits : Op → List SOp
  | .simple op => [op]
  | .group ops => ops

/-- The first of these edits changes the gap buffer there is. -/
def inPlace : List SOp → Bool
  | [] => false
  | op :: _ => !fresh op

/-- The edits that `undo` takes back, in the order in which it does, without those for which there is nothing to do. -/
def takenBack (b : Buf) : List SOp :=
  match undone b with
  | none => []
  | some op => (edits op).reverse.filter fun op => !idle op

/-- The edits that `redo` makes again. -/
def madeAgain (b : Buf) : List SOp :=
  match b.history.next with
  | [] => []
  | op :: _ => edits op

/-- The movement looks at the text. -/
def looks (b : Buf) : Cursor.Move → Bool
  | .up => b.cursor.position.line != 0
  | .left => b.cursor.position.offset != 0
  | _ => true

/-- The call needs the text to be unchanged while it runs. -/
def reads (b : Buf) : Cmd → Bool
  | .replace _ | .reload _ => true
  | .move m => looks b m
  | _ => false

/-- The call changes the gap buffer there is. -/
def writes (b : Buf) : Cmd → Bool
  | .insert _ | .delete | .deleteRange _ _ => true
  | .undo => inPlace (takenBack b)
  | .redo => inPlace (madeAgain b)
  | _ => false

/-- The calls that panic. -/
def blocked : Guard → Buf → Cmd → Bool
  | .free, _, _ => false
  | .shared, b, c => writes b c
  | .exclusive, b, c => reads b c || writes b c

/-- The call gives the buffer a new gap buffer. -/
def renews (b : Buf) : Cmd → Bool
  | .replace t | .reload t => match b.data.toStr with
    | .ok u => t != u
    | .error _ => true
  | .undo => (takenBack b).any fresh
  | .redo => (madeAgain b).any fresh
  | _ => false

/-- What a call that panics leaves: `undo` and `redo` have already moved in the history. -/
def left (b : Buf) : Cmd → Buf
  | .undo => { b with group := none, history := undoneHistory b }
  | .redo => { b with history := b.history.forth.2 }
  | _ => b

/-- The guards of a cell, by kind. -/
def kind (c : Shared.Cell) : Guard := if c.writing then .exclusive else if c.readers = 0 then .free else .shared

/-- A buffer with pointers that uses the cell `c`, has no callback, and is otherwise the buffer `a`. -/
structure Uses {ξ : Type} (w : Shared.World ξ) (b : Shared.Buf ξ) (c : Shared.Cell) (a : Buf) : Prop where
  cell : w.cells[b.data]? = some c
  value : c.value = a.data
  shared : b.cursor = ⟨b.data, a.cursor⟩
  history : b.history = a.history
  group : b.group = a.group
  callback : b.callback = none
  silent : a.callback = false

end Scribe.Guarded
