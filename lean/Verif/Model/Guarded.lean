import Verif.Model.Unwind
/-!
# Calls while the caller holds a guard of the gap buffer

`buffer.cursor.data` is public (src/buffer/cursor.rs:13), so a caller can clone the pointer, take a guard of the cell (`borrow()` or `borrow_mut()`) and keep it
alive while it calls the buffer. Calls that need the cell then panic (std `RefCell`), and a caller that catches the panic (`std::panic::catch_unwind`) goes on with the
buffer as it is at that moment. Here the functions of src/buffer/operation/*.rs and src/buffer/mod.rs are modelled again with the guard that is held, and
with the buffer that an unwound call leaves.

`replace_content` makes a new cell (src/buffer/operation/replace.rs:98), so after it the guard is one of a cell that the buffer no longer uses. Buffer and cursor use the same cell (C63);
callbacks behave (C90 has those that panic).
-/
namespace Scribe.Guarded
open Scribe (Buf SOp Op)
open Scribe.Buf (Cmd)

/-- The guards of the cell that the buffer uses: none, `Ref` guards, or a `RefMut` guard. -/
inductive Guard where
  | free | shared | exclusive
  deriving DecidableEq, Repr

/-- A call returns, with the guard of the cell that the buffer uses now, or is unwound and leaves the buffer as given. -/
inductive Out (α : Type) where
  | done (a : α) (g : Guard)
  | unwound (b : Buf)
  deriving DecidableEq, Repr

/-- What follows runs only after a return. -/
def andThen {α β : Type} (x : R (Out α)) (f : α → Guard → R (Out β)) : R (Out β) := do
  match ← x with
  | .done a g => f a g
  | .unwound b => return .unwound b

/-- `cell.borrow()`, and what follows it; `b` is the buffer when it panics. -/
def reading {α : Type} (g : Guard) (b : Buf) (f : R (Out α)) : R (Out α) := if g = .exclusive then return .unwound b else f

/-- `cell.borrow_mut()`, and what follows it. -/
def writing {α : Type} (g : Guard) (b : Buf) (f : R (Out α)) : R (Out α) := if g = .free then f else return .unwound b

variable (S : Segmenter) (A : Alloc)

/-- src/buffer/operation/replace.rs:96-117 `replace_content`: the old cell is not touched, the new one has no guards. -/
def replaceContent (content : Text) (b : Buf) : R (Out Buf) := do return .done (← Buf.replaceContent S A content b) .free

/-- `Operation::run`: src/buffer/operation/insert.rs:22-32, delete.rs:20-31, replace.rs:23-25. -/
def runOp (g : Guard) (b : Buf) : SOp → R (Out (Buf × SOp))
  | .insert content position => writing g b do
    let data ← b.data.insert S A content position
    return .done ({ b with data := data }.report position, .insert content position) g
  | .delete _ range => reading g b do
    let content ← b.data.read S range
    writing g b do
      let data ← b.data.delete S range
      return .done ({ b with data := data }.report range.start, .delete content range) g
  | .replace old new => andThen (replaceContent S A new b) fun b g => return .done (b, .replace old new) g

/-- `Operation::reverse`: src/buffer/operation/insert.rs:37-71, delete.rs:33-45, replace.rs:27-29. -/
def reverseOp (g : Guard) (b : Buf) : SOp → R (Out Buf)
  | .insert content position => do
    match ← Buf.insertEnd S content position with
    | none => return .done b g
    | some stop => writing g b do
      let data ← b.data.delete S (Range.new position stop)
      return .done ({ b with data := data }.report position) g
  | .delete content range =>
    match content with
    | some content => writing g b do
      let data ← b.data.insert S A content range.start
      return .done ({ b with data := data }.report range.start) g
    | none => return .done b g
  | .replace old _ => replaceContent S A old b

/-- src/buffer/operation/group.rs:20-24 `run`. -/
def runAll (g : Guard) (b : Buf) : List SOp → R (Out Buf)
  | [] => return .done b g
  | op :: ops => andThen (runOp S A g b op) fun r g => runAll g r.1 ops

/-- src/buffer/operation/group.rs:27-31 `reverse`, on the already reversed list. -/
def reverseAll (g : Guard) (b : Buf) : List SOp → R (Out Buf)
  | [] => return .done b g
  | op :: ops => andThen (reverseOp S A g b op) fun b g => reverseAll g b ops

/-- `Operation::run`. -/
def runAny (g : Guard) (b : Buf) : Op → R (Out Buf)
  | .simple op => andThen (runOp S A g b op) fun r g => return .done r.1 g
  | .group ops => runAll S A g b ops

/-- `Operation::reverse`. -/
def reverseAny (g : Guard) (b : Buf) : Op → R (Out Buf)
  | .simple op => reverseOp S A g b op
  | .group ops => reverseAll S A g b ops.reverse

/-- `op.run(self)` and then the `match self.operation_group` (src/buffer/operation/insert.rs:97-108, delete.rs:123-134, replace.rs:85-92). -/
def edit (g : Guard) (b : Buf) (op : SOp) : R (Out Buf) := andThen (runOp S A g b op) fun r g => return .done (r.1.store r.2) g

/-- src/buffer/operation/delete.rs:77-100 `delete`. -/
def delete (g : Guard) (b : Buf) : R (Out Buf) := reading g b do
  let stop : Position := ⟨b.cursor.position.line, b.cursor.position.offset + 1⟩
  let stop : Position := if !(← b.data.inBounds S stop) then ⟨stop.line + 1, 0⟩ else stop
  edit S A g b (.delete none (Range.new b.cursor.position stop))

/-- src/buffer/operation/replace.rs:76-93 `replace`. -/
def replace (g : Guard) (b : Buf) (content : Text) : R (Out Buf) := reading g b do
  let old ← b.data.toStr
  if content = old then return .done b g
  else edit S A g b (.replace old content)

/-- src/buffer/mod.rs:243-261 `undo`: the operation is taken out of the group or moved in the history before it is reversed. -/
def undo (g : Guard) (b : Buf) : R (Out Buf) := do
  let group := b.group
  let b := { b with group := none }
  match group with
  | some ops =>
    if ops.isEmpty then
      let (op, history) := b.history.back
      let b := { b with history := history }
      match op with
      | some op => reverseAny S A g b op
      | none => return .done b g
    else reverseAny S A g b (.group ops)
  | none =>
    let (op, history) := b.history.back
    let b := { b with history := history }
    match op with
    | some op => reverseAny S A g b op
    | none => return .done b g

/-- src/buffer/mod.rs:279-284 `redo`. -/
def redo (g : Guard) (b : Buf) : R (Out Buf) := do
  let (op, history) := b.history.forth
  let b := { b with history := history }
  match op with
  | some op => runAny S A g b op
  | none => return .done b g

/-- src/buffer/cursor.rs:65-244: `move_up` on the first line (line 82) and `move_left` at the start of a line (line 144) return at once. All other movements take a guard
before they assign anything, and never more than `borrow()`. -/
def move (g : Guard) (b : Buf) (m : Cursor.Move) : R (Out Buf) :=
  let rest : R (Out Buf) := do return .done { b with cursor := ← Cursor.move S b.data b.cursor m } g
  match m with
  | .up => if b.cursor.position.line = 0 then rest else reading g b rest
  | .left => if b.cursor.position.offset = 0 then rest else reading g b rest
  | _ => reading g b rest

/-- src/buffer/mod.rs:413-425 `reload`, after `content` has been read. -/
def reloadWith (g : Guard) (b : Buf) (content : Text) : R (Out Buf) := andThen (replace S A g b content) fun b g => return .done b.setMark g

/-- One call. `saved` is what `save` does after it has written the file. -/
def exec (g : Guard) (b : Buf) : Cmd → R (Out Buf)
  | .insert s => edit S A g b (.insert s b.cursor.position)
  | .delete => delete S A g b
  | .deleteRange p q => edit S A g b (.delete none (Range.new p q))
  | .replace c => replace S A g b c
  | .undo => undo S A g b
  | .redo => redo S A g b
  | .startGroup => .ok (.done b.startGroup g)
  | .endGroup => .ok (.done b.endGroup g)
  | .move m => move S g b m
  | .setCursor p => .ok (.done { b with cursor := { b.cursor with position := p } } g)
  | .setCallback set => .ok (.done { b with callback := set } g)
  | .saved => .ok (.done b.setMark g)
  | .reload c => reloadWith S A g b c

/-- src/buffer/mod.rs:150-152 `data`. -/
def data (g : Guard) (b : Buf) : R (Out Text) := reading g b do return .done (← b.data.toStr) g

/-- What a program does: it calls the buffer, or drops its guards and takes (`hold`) one of the cell that the buffer uses now. -/
inductive Step where
  | call (c : Cmd)
  | hold (g : Guard)
  deriving DecidableEq, Repr

/-- A program that catches the panics. -/
def session (g : Guard) (b : Buf) : List Step → R (Buf × Guard)
  | [] => .ok (b, g)
  | .hold g :: ss => session g b ss
  | .call c :: ss => do
    match ← exec S A g b c with
    | .done b g => session g b ss
    | .unwound b => session g b ss

end Scribe.Guarded
