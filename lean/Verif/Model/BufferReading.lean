import Verif.Model.Reading
import Verif.Model.Buffer
/-!
# The buffer with a counter of what is read

The functions of `Verif/Model/Cursor.lean` and `Verif/Model/Buffer.lean` on top of the gap buffer with counters (`Verif/Model/Reading.lean`). What `lines()` and `graphemes()` do with
the strings that the gap buffer has returned is not counted.
-/
namespace Scribe
variable (S : Segmenter) (A : Alloc)

namespace Cursor

/-- src/buffer/cursor.rs:65-76 `move_to`. -/
def moveToR (g : GapBuffer) (c : Cursor) (p : Position) (w : Effort) : R ((Bool × Cursor) × Effort) := do
  let (ok, w) ← g.inBoundsR S p w
  if ok then return ((true, ⟨p, p.offset⟩), w)
  else return ((false, c), w)

/-- The common part of `move_up` and `move_down` (src/buffer/cursor.rs:87-109 and 116-138). -/
def moveToLineR (g : GapBuffer) (c : Cursor) (target : Nat) (w : Effort) : R (Cursor × Effort) := do
  let newOffset := c.sticky
  let ((ok, c), w) ← moveToR S g c ⟨target, newOffset⟩ w
  if !ok then
    let (t, w) ← g.toStrR w
    let ((_, c), w) ← moveToR S g c ⟨target, lineEnd S t target⟩ w
    return ({ c with sticky := newOffset }, w)
  else return (c, w)

/-- src/buffer/cursor.rs:80-110 `move_up`. -/
def moveUpR (g : GapBuffer) (c : Cursor) (w : Effort) : R (Cursor × Effort) := do
  if c.position.line = 0 then return (c, w)
  else
    let target ← subU c.position.line 1
    moveToLineR S g c target w

/-- src/buffer/cursor.rs:114-139 `move_down`. -/
def moveDownR (g : GapBuffer) (c : Cursor) (w : Effort) : R (Cursor × Effort) :=
  moveToLineR S g c (c.position.line + 1) w

/-- src/buffer/cursor.rs:143-154 `move_left`. -/
def moveLeftR (g : GapBuffer) (c : Cursor) (w : Effort) : R (Cursor × Effort) := do
  if c.position.offset = 0 then return (c, w)
  else
    let o ← subU c.position.offset 1
    let ((_, c), w) ← moveToR S g c ⟨c.position.line, o⟩ w
    return (c, w)

/-- src/buffer/cursor.rs:158-164 `move_right`. -/
def moveRightR (g : GapBuffer) (c : Cursor) (w : Effort) : R (Cursor × Effort) := do
  let ((_, c), w) ← moveToR S g c ⟨c.position.line, c.position.offset + 1⟩ w
  return (c, w)

/-- src/buffer/cursor.rs:167-173 `move_to_start_of_line`. -/
def moveToStartOfLineR (g : GapBuffer) (c : Cursor) (w : Effort) : R (Cursor × Effort) := do
  let ((_, c), w) ← moveToR S g c ⟨c.position.line, 0⟩ w
  return (c, w)

/-- src/buffer/cursor.rs:176-186 `move_to_end_of_line`. -/
def moveToEndOfLineR (g : GapBuffer) (c : Cursor) (w : Effort) : R (Cursor × Effort) := do
  let (t, w) ← g.toStrR w
  match (strLines t)[c.position.line]? with
  | some l =>
    let ((_, c), w) ← moveToR S g c ⟨c.position.line, (S.segs l).length⟩ w
    return (c, w)
  | none => return (c, w)

/-- src/buffer/cursor.rs:189-216 `move_to_last_line`. -/
def moveToLastLineR (g : GapBuffer) (c : Cursor) (w : Effort) : R (Cursor × Effort) := do
  let (t, w) ← g.toStrR w
  let (line, length) := lastLine (S.segs t) (0, 0)
  let target : Position := if length < c.sticky then ⟨line, length⟩ else ⟨line, c.sticky⟩
  let ((_, c), w) ← moveToR S g c target w
  return (c, w)

/-- src/buffer/cursor.rs:219-244 `move_to_first_line`. -/
def moveToFirstLineR (g : GapBuffer) (c : Cursor) (w : Effort) : R (Cursor × Effort) := do
  let (t, w) ← g.toStrR w
  let length := ((strLines t)[0]?.map fun l => (S.segs l).length).getD 0
  let target : Position := if length < c.sticky then ⟨0, length⟩ else ⟨0, c.sticky⟩
  let ((_, c), w) ← moveToR S g c target w
  return (c, w)

/-- One movement. -/
def moveR (g : GapBuffer) (c : Cursor) (w : Effort) : Move → R (Cursor × Effort)
  | .to p => do
    let ((_, c), w) ← moveToR S g c p w
    return (c, w)
  | .up => moveUpR S g c w
  | .down => moveDownR S g c w
  | .left => moveLeftR S g c w
  | .right => moveRightR S g c w
  | .startOfLine => moveToStartOfLineR S g c w
  | .endOfLine => moveToEndOfLineR S g c w
  | .lastLine => moveToLastLineR S g c w
  | .firstLine => moveToFirstLineR S g c w

end Cursor

namespace Buf

/-- src/buffer/operation/replace.rs:96-117 `replace_content`. -/
def replaceContentR (content : Text) (b : Buf) (w : Effort) : R (Buf × Effort) := do
  let data := GapBuffer.new A b.data.clock content
  let cursor := Cursor.new ⟨0, 0⟩
  let ((ok, cursor), w) ← Cursor.moveToR S data cursor b.cursor.position w
  if !ok then
    let ((_, cursor), w) ← Cursor.moveToR S data cursor ⟨b.cursor.position.line, 0⟩ w
    return ({ b with data := data, cursor := cursor }.report Position.new, w)
  else return ({ b with data := data, cursor := cursor }.report Position.new, w)

/-- `Operation::run` of the simple operations: src/buffer/operation/insert.rs:22-32, delete.rs:20-31, replace.rs:23-25. -/
def runOpR (b : Buf) (w : Effort) : SOp → R ((Buf × SOp) × Effort)
  | .insert content position => do
    let (data, w) ← b.data.insertR S A content position w
    return (({ b with data := data }.report position, .insert content position), w)
  | .delete _ range => do
    let (content, w) ← b.data.readR S range w
    let (data, w) ← b.data.deleteR S range w
    return (({ b with data := data }.report range.start, .delete content range), w)
  | .replace old new => do
    let (b, w) ← replaceContentR S A new b w
    return ((b, .replace old new), w)

/-- `Operation::reverse` of the simple operations: src/buffer/operation/insert.rs:37-71, delete.rs:33-45, replace.rs:27-29. -/
def reverseOpR (b : Buf) (w : Effort) : SOp → R (Buf × Effort)
  | .insert content position => do
    match ← insertEnd S content position with
    | none => return (b, w)
    | some stop =>
      let (data, w) ← b.data.deleteR S (Range.new position stop) w
      return ({ b with data := data }.report position, w)
  | .delete content range =>
    match content with
    | some content => do
      let (data, w) ← b.data.insertR S A content range.start w
      return ({ b with data := data }.report range.start, w)
    | none => return (b, w)
  | .replace old _ => replaceContentR S A old b w

/-- src/buffer/operation/group.rs:20-24 `run`. -/
def runAllR (b : Buf) (w : Effort) : List SOp → R (Buf × Effort)
  | [] => return (b, w)
  | op :: ops => do
    let ((b, _), w) ← runOpR S A b w op
    runAllR b w ops

/-- src/buffer/operation/group.rs:27-31 `reverse`, on the already reversed list. -/
def reverseAllR (b : Buf) (w : Effort) : List SOp → R (Buf × Effort)
  | [] => return (b, w)
  | op :: ops => do
    let (b, w) ← reverseOpR S A b w op
    reverseAllR b w ops

/-- `Operation::run`. -/
def runAnyR (b : Buf) (w : Effort) : Op → R (Buf × Effort)
  | .simple op => do
    let ((b, _), w) ← runOpR S A b w op
    return (b, w)
  | .group ops => runAllR S A b w ops

/-- `Operation::reverse`. -/
def reverseAnyR (b : Buf) (w : Effort) : Op → R (Buf × Effort)
  | .simple op => reverseOpR S A b w op
  | .group ops => reverseAllR S A b w ops.reverse

/-- The common end of `insert`, `delete_range` and `replace` (src/buffer/operation/insert.rs:100-107, delete.rs:126-133, replace.rs:86-92). -/
def editR (b : Buf) (w : Effort) (op : SOp) : R (Buf × Effort) := do
  let ((b, op), w) ← runOpR S A b w op
  return (b.store op, w)

/-- src/buffer/operation/delete.rs:77-100 `delete`. -/
def deleteR (b : Buf) (w : Effort) : R (Buf × Effort) := do
  let stop : Position := ⟨b.cursor.position.line, b.cursor.position.offset + 1⟩
  let (inside, w) ← b.data.inBoundsR S stop w
  let stop : Position := if !inside then ⟨stop.line + 1, 0⟩ else stop
  editR S A b w (.delete none (Range.new b.cursor.position stop))

/-- src/buffer/operation/replace.rs:76-93 `replace`: `data()` is called twice if the contents differ (lines 77 and 85). -/
def replaceR (b : Buf) (w : Effort) (content : Text) : R (Buf × Effort) := do
  let (old, w) ← b.data.toStrR w
  if content = old then return (b, w)
  else
    let (old, w) ← b.data.toStrR w
    editR S A b w (.replace old content)

/-- What `undo` does with the operation it found (src/buffer/mod.rs:257-260). -/
def reverseFoundR (b : Buf) (w : Effort) : Option Op → R (Buf × Effort)
  | some op => reverseAnyR S A b w op
  | none => return (b, w)

/-- src/buffer/mod.rs:243-261 `undo`. -/
def undoR (b : Buf) (w : Effort) : R (Buf × Effort) := do
  let group := b.group
  let b := { b with group := none }
  match group with
  | some ops =>
    if ops.isEmpty then
      let (op, history) := b.history.back
      reverseFoundR S A { b with history := history } w op
    else reverseAnyR S A b w (.group ops)
  | none =>
    let (op, history) := b.history.back
    reverseFoundR S A { b with history := history } w op

/-- src/buffer/mod.rs:279-284 `redo`. -/
def redoR (b : Buf) (w : Effort) : R (Buf × Effort) := do
  let (op, history) := b.history.forth
  let b := { b with history := history }
  match op with
  | some op => runAnyR S A b w op
  | none => return (b, w)

/-- One call. -/
def execR (b : Buf) (w : Effort) : Cmd → R (Buf × Effort)
  | .insert s => editR S A b w (.insert s b.cursor.position)
  | .delete => deleteR S A b w
  | .deleteRange p q => editR S A b w (.delete none (Range.new p q))
  | .replace c => replaceR S A b w c
  | .undo => undoR S A b w
  | .redo => redoR S A b w
  | .move m => do
    let (c, w) ← Cursor.moveR S b.data b.cursor w m
    return ({ b with cursor := c }, w)
  | .reload c => do
    let (b, w) ← replaceR S A b w c
    return (b.setMark, w)
  | .startGroup => .ok (b.startGroup, w)
  | .endGroup => .ok (b.endGroup, w)
  | .setCursor p => .ok ({ b with cursor := { b.cursor with position := p } }, w)
  | .setCallback set => .ok ({ b with callback := set }, w)
  | .saved => .ok (b.setMark, w)

/-- A sequence of calls. -/
def execAllR (b : Buf) (w : Effort) : List Cmd → R (Buf × Effort)
  | [] => .ok (b, w)
  | c :: cs => do
    let (b, w) ← execR S A b w c
    execAllR b w cs

end Buf
end Scribe
