import Verif.Model.Buffer
/-!
# Callbacks that panic

The change callback is the only foreign code that runs inside a call of a buffer, besides the conversions of arguments (`Verif/Model/Convert.lean`). If it panics, the call is unwound, and a caller that
catches the panic (`std::panic::catch_unwind`) goes on with the buffer as it is at that moment. `Verif/Model/Buffer.lean` has no such state: here the functions of
src/buffer/operation/*.rs and src/buffer/mod.rs are modelled again, with the buffer that an unwound call leaves. Locals are dropped; the guards of the cell are
temporaries of statements that have ended when the callback runs (C62), so none is left behind.
-/
namespace Scribe.Unwind
open Scribe (Buf SOp Op)
open Scribe.Buf (Cmd)

/-- A call returns, or is unwound and leaves the buffer as given. -/
inductive Out (α : Type) where
  | done (a : α)
  | unwound (b : Buf)
  deriving DecidableEq, Repr

/-- What follows runs only after a return. -/
def andThen {α β : Type} (x : R (Out α)) (f : α → R (Out β)) : R (Out β) := do
  match ← x with
  | .done a => f a
  | .unwound b => return .unwound b

variable (S : Segmenter) (A : Alloc)

/-- Which calls of the callback panic, by their number. -/
abbrev Fate := Nat → Bool

variable (fate : Fate)

/-- `if let Some(ref callback) = buffer.change_callback { callback(p) }` (src/buffer/operation/insert.rs:29-31 and others). -/
def report (b : Buf) (p : Position) : Out Buf :=
  if b.callback then
    let b' := { b with log := b.log ++ [p] }
    if fate b.log.length then .unwound b' else .done b'
  else .done b

/-- src/buffer/operation/replace.rs:96-117 `replace_content`. -/
def replaceContent (content : Text) (b : Buf) : R (Out Buf) := do
  let data := GapBuffer.new A b.data.clock content
  let cursor := Cursor.new ⟨0, 0⟩
  let (ok, cursor) ← Cursor.moveTo S data cursor b.cursor.position
  let cursor ← if !ok then do
      let (_, c) ← Cursor.moveTo S data cursor ⟨b.cursor.position.line, 0⟩
      pure c
    else pure cursor
  return report fate { b with data := data, cursor := cursor } Position.new

/-- `Operation::run`: src/buffer/operation/insert.rs:22-32, delete.rs:20-31, replace.rs:23-25. -/
def runOp (b : Buf) : SOp → R (Out (Buf × SOp))
  | .insert content position => do
    let data ← b.data.insert S A content position
    andThen (.ok (report fate { b with data := data } position)) fun b => return .done (b, .insert content position)
  | .delete _ range => do
    let content ← b.data.read S range
    let data ← b.data.delete S range
    andThen (.ok (report fate { b with data := data } range.start)) fun b => return .done (b, .delete content range)
  | .replace old new => andThen (replaceContent S A fate new b) fun b => return .done (b, .replace old new)

/-- `Operation::reverse`: src/buffer/operation/insert.rs:37-71, delete.rs:33-45, replace.rs:27-29. -/
def reverseOp (b : Buf) : SOp → R (Out Buf)
  | .insert content position => do
    match ← Buf.insertEnd S content position with
    | none => return .done b
    | some stop =>
      let data ← b.data.delete S (Range.new position stop)
      return report fate { b with data := data } position
  | .delete content range =>
    match content with
    | some content => do
      let data ← b.data.insert S A content range.start
      return report fate { b with data := data } range.start
    | none => return .done b
  | .replace old _ => replaceContent S A fate old b

/-- src/buffer/operation/group.rs:20-24 `run`. -/
def runAll (b : Buf) : List SOp → R (Out Buf)
  | [] => return .done b
  | op :: ops => andThen (runOp S A fate b op) fun r => runAll r.1 ops

/-- src/buffer/operation/group.rs:27-31 `reverse`, on the already reversed list. -/
def reverseAll (b : Buf) : List SOp → R (Out Buf)
  | [] => return .done b
  | op :: ops => andThen (reverseOp S A fate b op) fun b => reverseAll b ops

/-- `Operation::run`. -/
def runAny (b : Buf) : Op → R (Out Buf)
  | .simple op => andThen (runOp S A fate b op) fun r => return .done r.1
  | .group ops => runAll S A fate b ops

/-- `Operation::reverse`. -/
def reverseAny (b : Buf) : Op → R (Out Buf)
  | .simple op => reverseOp S A fate b op
  | .group ops => reverseAll S A fate b ops.reverse

/-- `op.run(self)` and then the `match self.operation_group` (src/buffer/operation/insert.rs:97-108, delete.rs:123-134, replace.rs:85-92). -/
def edit (b : Buf) (op : SOp) : R (Out Buf) := andThen (runOp S A fate b op) fun r => return .done (r.1.store r.2)

/-- src/buffer/operation/delete.rs:77-100 `delete`. -/
def delete (b : Buf) : R (Out Buf) := do
  let stop : Position := ⟨b.cursor.position.line, b.cursor.position.offset + 1⟩
  let stop : Position := if !(← b.data.inBounds S stop) then ⟨stop.line + 1, 0⟩ else stop
  edit S A fate b (.delete none (Range.new b.cursor.position stop))

/-- src/buffer/operation/replace.rs:76-93 `replace`. -/
def replace (b : Buf) (content : Text) : R (Out Buf) := do
  let old ← b.data.toStr
  if content = old then return .done b
  else edit S A fate b (.replace old content)

/-- src/buffer/mod.rs:243-261 `undo`: the operation is taken out of the group or moved in the history before it is reversed. -/
def undo (b : Buf) : R (Out Buf) := do
  let group := b.group
  let b := { b with group := none }
  match group with
  | some ops =>
    if ops.isEmpty then
      let (op, history) := b.history.back
      let b := { b with history := history }
      match op with
      | some op => reverseAny S A fate b op
      | none => return .done b
    else reverseAny S A fate b (.group ops)
  | none =>
    let (op, history) := b.history.back
    let b := { b with history := history }
    match op with
    | some op => reverseAny S A fate b op
    | none => return .done b

/-- src/buffer/mod.rs:279-284 `redo`. -/
def redo (b : Buf) : R (Out Buf) := do
  let (op, history) := b.history.forth
  let b := { b with history := history }
  match op with
  | some op => runAny S A fate b op
  | none => return .done b

/-- src/buffer/mod.rs:413-425 `reload`, after `content` has been read. -/
def reloadWith (b : Buf) (content : Text) : R (Out Buf) := andThen (replace S A fate b content) fun b => return .done b.setMark

/-- One call. Movements, groups, saves and assignments do not call the callback. -/
def exec (b : Buf) : Cmd → R (Out Buf)
  | .insert s => edit S A fate b (.insert s b.cursor.position)
  | .delete => delete S A fate b
  | .deleteRange p q => edit S A fate b (.delete none (Range.new p q))
  | .replace c => replace S A fate b c
  | .undo => undo S A fate b
  | .redo => redo S A fate b
  | .startGroup => .ok (.done b.startGroup)
  | .endGroup => .ok (.done b.endGroup)
  | .move m => do return .done { b with cursor := ← Cursor.move S b.data b.cursor m }
  | .setCursor p => .ok (.done { b with cursor := { b.cursor with position := p } })
  | .setCallback set => .ok (.done { b with callback := set })
  | .saved => .ok (.done b.setMark)
  | .reload c => reloadWith S A fate b c

/-- A program that catches the panics of its callback and goes on. -/
def session (b : Buf) : List Cmd → R Buf
  | [] => .ok b
  | c :: cs => do
    match ← exec S A fate b c with
    | .done b => session b cs
    | .unwound b => session b cs

end Scribe.Unwind
