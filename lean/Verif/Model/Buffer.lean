import Verif.Model.Cursor
/-!
# Buffers: edit operations, undo history, groups

Models src/buffer/mod.rs and src/buffer/operation/*.rs, for the fields of `Buffer` that take part in
editing. The fields `id`, `path` and `syntax_definition` are added in `Verif/Model/File.lean` and
`Verif/Model/Workspace.lean`.

The change callback is a closure; what is observable is whether it is set and the positions it has been
called with. `log` records those calls. (A callback cannot reach the buffer it is called from, except through
shared pointers obtained from `Cursor::data`; `Verif/Model/Shared.lean` models these.)
-/
namespace Scribe

/-- The simple operations: src/buffer/operation/insert.rs:16-19 `Insert`, delete.rs:14-17 `Delete`,
replace.rs:17-20 `Replace`. -/
inductive SOp where
  | insert (content : Text) (position : Position)
  | delete (content : Option Text) (range : Range)
  | replace (old new : Text)
  deriving DecidableEq, Repr

/-- `Box<dyn Operation>`: a simple operation or a group (src/buffer/operation/group.rs:14-16). Groups of
groups cannot be built through the API. -/
inductive Op where
  | simple (op : SOp)
  | group (ops : List SOp)
  deriving DecidableEq, Repr

/-- src/buffer/operation/history.rs:8-12 `History`; both stacks are listed with the top first. -/
structure History where
  previous : List Op
  next : List Op
  mark : Option Nat
  deriving DecidableEq, Repr

namespace History

/-- src/buffer/operation/history.rs:16-22. -/
def new : History := ⟨[], [], none⟩

/-- src/buffer/operation/history.rs:25-35 `add`. -/
def add (h : History) (op : Op) : History :=
  let previous := op :: h.previous
  { previous := previous
    next := []
    mark := match h.mark with
      | some m => if m ≥ previous.length then none else some m
      | none => none }

/-- src/buffer/operation/history.rs:38-48 `previous`. -/
def back (h : History) : Option Op × History :=
  match h.previous with
  | op :: ops => (some op, { h with previous := ops, next := op :: h.next })
  | [] => (none, h)

/-- src/buffer/operation/history.rs:51-61 `next`. -/
def forth (h : History) : Option Op × History :=
  match h.next with
  | op :: ops => (some op, { h with next := ops, previous := op :: h.previous })
  | [] => (none, h)

/-- src/buffer/operation/history.rs:63-65 `mark`. -/
def setMark (h : History) : History := { h with mark := some h.previous.length }

/-- src/buffer/operation/history.rs:67-73 `at_mark`. -/
def atMark (h : History) : Bool :=
  match h.mark with
  | some m => h.previous.length == m
  | none => false

end History

/-- src/buffer/mod.rs:47-56 `Buffer`, the editing part. -/
structure Buf where
  data : GapBuffer
  cursor : Cursor
  history : History
  group : Option (List SOp)
  /-- whether `change_callback` is set -/
  callback : Bool
  /-- the calls made to it so far -/
  log : List Position
  deriving DecidableEq, Repr

namespace Buf
variable (S : Segmenter) (A : Alloc)

/-- src/buffer/mod.rs:58-76 `Default for Buffer`. The history that is marked there (lines 62-63) is not the one
stored (line 70). `k` is the state of the allocator. -/
def new (k : Nat) : Buf := ⟨GapBuffer.new A k [], Cursor.new ⟨0, 0⟩, History.new, none, false, []⟩

/-- src/buffer/mod.rs:113-137 `from_file`, after `content` has been read. -/
def fromContent (k : Nat) (content : Text) : Buf :=
  ⟨GapBuffer.new A k content, Cursor.new ⟨0, 0⟩, History.new.setMark, none, false, []⟩

/-- `if let Some(ref callback) = buffer.change_callback { callback(p) }`
(src/buffer/operation/insert.rs:29-31 and others). -/
def report (b : Buf) (p : Position) : Buf := if b.callback then { b with log := b.log ++ [p] } else b

/-- src/buffer/operation/replace.rs:96-117 `replace_content`. -/
def replaceContent (content : Text) (b : Buf) : R Buf := do
  let data := GapBuffer.new A b.data.clock content
  let cursor := Cursor.new ⟨0, 0⟩
  let (ok, cursor) ← Cursor.moveTo S data cursor b.cursor.position
  let cursor ← if !ok then do
      let (_, c) ← Cursor.moveTo S data cursor ⟨b.cursor.position.line, 0⟩
      pure c
    else pure cursor
  return { b with data := data, cursor := cursor }.report Position.new

/-- `Operation::run` of the simple operations: src/buffer/operation/insert.rs:22-32, delete.rs:20-31,
replace.rs:23-25. Returns the (updated) operation as well. -/
def runOp (b : Buf) : SOp → R (Buf × SOp)
  | .insert content position => do
    let data ← b.data.insert S A content position
    return ({ b with data := data }.report position, .insert content position)
  | .delete _ range => do
    let content ← b.data.read S range
    let data ← b.data.delete S range
    return ({ b with data := data }.report range.start, .delete content range)
  | .replace old new => do
    let b ← replaceContent S A new b
    return (b, .replace old new)

/-- src/buffer/operation/insert.rs:37-61: the end of the inserted range. `split('\n').last()` is never `None`
(`splitNl` is never empty), so the early return of line 52 cannot happen; it is modelled by `none`. -/
def insertEnd (content : Text) (p : Position) : R (Option Position) := do
  let lineCount := countNl content + 1
  let endLine ← subU (p.line + lineCount) 1
  if lineCount = 1 then
    return some ⟨endLine, p.offset + (S.segs content).length⟩
  else
    match (splitNl content).getLast? with
    | some line => return some ⟨endLine, (S.segs line).length⟩
    | none => return none

/-- `Operation::reverse` of the simple operations: src/buffer/operation/insert.rs:37-71, delete.rs:33-45,
replace.rs:27-29. -/
def reverseOp (b : Buf) : SOp → R Buf
  | .insert content position => do
    match ← insertEnd S content position with
    | none => return b
    | some stop =>
      let data ← b.data.delete S (Range.new position stop)
      return { b with data := data }.report position
  | .delete content range =>
    match content with
    | some content => do
      let data ← b.data.insert S A content range.start
      return { b with data := data }.report range.start
    | none => return b
  | .replace old _ => replaceContent S A old b

/-- src/buffer/operation/group.rs:20-24 `run`. -/
def runAll (b : Buf) : List SOp → R Buf
  | [] => return b
  | op :: ops => do
    let (b, _) ← runOp S A b op
    runAll b ops

/-- src/buffer/operation/group.rs:27-31 `reverse`, on the already reversed list. -/
def reverseAll (b : Buf) : List SOp → R Buf
  | [] => return b
  | op :: ops => do
    let b ← reverseOp S A b op
    reverseAll b ops

/-- `Operation::run`. -/
def runAny (b : Buf) : Op → R Buf
  | .simple op => do return (← runOp S A b op).1
  | .group ops => runAll S A b ops

/-- `Operation::reverse`. -/
def reverseAny (b : Buf) : Op → R Buf
  | .simple op => reverseOp S A b op
  | .group ops => reverseAll S A b ops.reverse

/-- The `match self.operation_group` at the end of each edit (src/buffer/operation/insert.rs:104-107,
delete.rs:130-133, replace.rs:89-92): add to the open group, or to the history. -/
def store (b : Buf) (op : SOp) : Buf :=
  match b.group with
  | some ops => { b with group := some (ops ++ [op]) }
  | none => { b with history := b.history.add (.simple op) }

/-- src/buffer/operation/insert.rs:97-108 `Buffer::insert`. -/
def insert (b : Buf) (s : Text) : R Buf := do
  let (b, op) ← runOp S A b (.insert s b.cursor.position)
  return b.store op

/-- src/buffer/operation/delete.rs:123-134 `delete_range`. -/
def deleteRange (b : Buf) (r : Range) : R Buf := do
  let (b, op) ← runOp S A b (.delete none r)
  return b.store op

/-- src/buffer/operation/delete.rs:77-100 `delete`. -/
def delete (b : Buf) : R Buf := do
  let stop : Position := ⟨b.cursor.position.line, b.cursor.position.offset + 1⟩
  let stop : Position := if !(← b.data.inBounds S stop) then ⟨stop.line + 1, 0⟩ else stop
  deleteRange S A b (Range.new b.cursor.position stop)

/-- src/buffer/operation/replace.rs:76-93 `replace`. -/
def replace (b : Buf) (content : Text) : R Buf := do
  let old ← b.data.toStr
  if content = old then return b
  else
    let (b, op) ← runOp S A b (.replace old content)
    return b.store op

/-- src/buffer/operation/group.rs:69-77 `start_operation_group`. -/
def startGroup (b : Buf) : Buf :=
  match b.group with
  | some _ => b
  | none => { b with group := some [] }

/-- src/buffer/operation/group.rs:82-89 `end_operation_group`. -/
def endGroup (b : Buf) : Buf :=
  match b.group with
  | some ops =>
    let b := { b with group := none }
    if ops.isEmpty then b else { b with history := b.history.add (.group ops) }
  | none => b

/-- src/buffer/mod.rs:243-261 `undo`. -/
def undo (b : Buf) : R Buf := do
  let group := b.group
  let b := { b with group := none }
  match group with
  | some ops =>
    if ops.isEmpty then
      let (op, history) := b.history.back
      let b := { b with history := history }
      match op with
      | some op => reverseAny S A b op
      | none => return b
    else reverseAny S A b (.group ops)
  | none =>
    let (op, history) := b.history.back
    let b := { b with history := history }
    match op with
    | some op => reverseAny S A b op
    | none => return b

/-- src/buffer/mod.rs:279-284 `redo`. -/
def redo (b : Buf) : R Buf := do
  let (op, history) := b.history.forth
  let b := { b with history := history }
  match op with
  | some op => runAny S A b op
  | none => return b

/-- `self.history.mark()` as at the end of `save` (src/buffer/mod.rs:193). -/
def setMark (b : Buf) : Buf := { b with history := b.history.setMark }

/-- src/buffer/mod.rs:413-425 `reload`, after `content` has been read. -/
def reloadWith (b : Buf) (content : Text) : R Buf := do
  let b ← replace S A b content
  return b.setMark

/-- src/buffer/mod.rs:372-374 `modified`. -/
def modified (b : Buf) : Bool := !b.history.atMark

/-- src/buffer/mod.rs:388-390 `line_count`. -/
def lineCount (b : Buf) : R Nat := do return countNl (← b.data.toStr) + 1

/-- Calls of the public API that change a buffer. `setCursor` is the unchecked assignment
`buffer.cursor.position = p`; `saved` and `reload` are the effects of a successful `save` and `reload`. -/
inductive Cmd where
  | insert (s : Text)
  | delete
  | deleteRange (p q : Position)
  | replace (content : Text)
  | undo
  | redo
  | startGroup
  | endGroup
  | move (m : Cursor.Move)
  | setCursor (p : Position)
  | setCallback (set : Bool)
  | saved
  | reload (content : Text)
  deriving DecidableEq, Repr

/-- One call. -/
def exec (b : Buf) : Cmd → R Buf
  | .insert s => insert S A b s
  | .delete => delete S A b
  | .deleteRange p q => deleteRange S A b (Range.new p q)
  | .replace c => replace S A b c
  | .undo => undo S A b
  | .redo => redo S A b
  | .startGroup => .ok b.startGroup
  | .endGroup => .ok b.endGroup
  | .move m => do return { b with cursor := ← Cursor.move S b.data b.cursor m }
  | .setCursor p => .ok { b with cursor := { b.cursor with position := p } }
  | .setCallback set => .ok { b with callback := set }
  | .saved => .ok b.setMark
  | .reload c => reloadWith S A b c

/-- A sequence of calls. -/
def execAll (b : Buf) : List Cmd → R Buf
  | [] => .ok b
  | c :: cs => do execAll (← exec S A b c) cs

end Buf
end Scribe
