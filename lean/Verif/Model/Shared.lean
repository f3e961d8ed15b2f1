import Verif.Model.Buffer
/-!
# Shared gap buffers: `Rc<RefCell<GapBuffer>>`

`Verif/Model/Buffer.lean` gives each buffer its own gap buffer by value. In the code a buffer and its cursor
each hold a reference-counted pointer to a `RefCell` with the gap buffer (src/buffer/mod.rs:49, src/buffer/cursor.rs:13); the
pointer inside the cursor is public and cursors can be cloned, so client code and change callbacks can hold further ones.

Here the cells, the pointers, the borrow flags of the cells and arbitrary callbacks are explicit. Cells are never removed: a
cell without pointers to it cannot be observed.
-/
namespace Scribe.Shared

/-- A pointer `Rc<RefCell<GapBuffer>>`. -/
abbrev Ptr := Nat

/-- `RefCell<GapBuffer>`: the value, the number of live `Ref` guards and whether there is a live `RefMut` guard. -/
structure Cell where
  value : GapBuffer
  readers : Nat
  writing : Bool
  deriving DecidableEq, Repr

/-- A cell without live guards. -/
def Cell.free (g : GapBuffer) : Cell := ⟨g, 0, false⟩

/-- All cells, and whatever else callbacks may read and change (`ext`). -/
structure World (ξ : Type) where
  cells : List Cell
  ext : ξ

variable {ξ : Type}

namespace World

/-- Following a pointer (Rust guarantees that the cell exists). -/
def get (w : World ξ) (p : Ptr) : R Cell :=
  match w.cells[p]? with
  | some c => .ok c
  | none => .error .index

def set (w : World ξ) (p : Ptr) (c : Cell) : World ξ := { w with cells := w.cells.set p c }

/-- `Rc::new(RefCell::new(g))`. -/
def alloc (w : World ξ) (g : GapBuffer) : Ptr × World ξ := (w.cells.length, { w with cells := w.cells ++ [.free g] })

end World

/-- `p.borrow()`, with the guard alive while `f` runs: panics if there is a `RefMut` (std `RefCell::borrow`). -/
def withRead {α : Type} (w : World ξ) (p : Ptr) (f : GapBuffer → World ξ → R (α × World ξ)) : R (α × World ξ) := do
  let c ← w.get p
  if c.writing then .error .borrow
  else
    let (a, w) ← f c.value (w.set p { c with readers := c.readers + 1 })
    let c ← w.get p
    .ok (a, w.set p { c with readers := c.readers - 1 })

/-- `p.borrow_mut()`, with the guard alive while `f` runs: panics if there is any guard (std `RefCell::borrow_mut`). -/
def withWrite (w : World ξ) (p : Ptr) (f : GapBuffer → World ξ → R (GapBuffer × World ξ)) : R (World ξ) := do
  let c ← w.get p
  if c.writing || c.readers != 0 then .error .borrow
  else
    let (g, w) ← f c.value (w.set p { c with writing := true })
    .ok (w.set p (.free g))

/-! ## The cursor -/

/-- src/buffer/cursor.rs:12-16 `struct Cursor`, with its pointer. -/
structure Cur where
  data : Ptr
  at_ : Cursor
  deriving DecidableEq, Repr

namespace Cur
variable (S : Segmenter)

/-- src/buffer/cursor.rs:34-40 `Cursor::new`. -/
def new (data : Ptr) (p : Position) : Cur := ⟨data, Cursor.new p⟩

/-- src/buffer/cursor.rs:65-76 `move_to`. The guard is a temporary of the `if` condition and is gone when the branch runs. -/
def moveTo (w : World ξ) (c : Cur) (p : Position) : R (Bool × Cur × World ξ) := do
  let (b, w) ← withRead w c.data fun g w => do return (← g.inBounds S p, w)
  if b then .ok (true, { c with at_ := ⟨p, p.offset⟩ }, w) else .ok (false, c, w)

/-- The common part of `move_up` and `move_down` (src/buffer/cursor.rs:87-109 and 116-138). The guard of the `for` head lives until
the end of the loop (lines 94-99 and 123-128), not longer. -/
def moveToLine (w : World ξ) (c : Cur) (target : Nat) : R (Cur × World ξ) := do
  let newOffset := c.at_.sticky
  let (ok, c, w) ← moveTo S w c ⟨target, newOffset⟩
  if !ok then
    let (offset, w) ← withRead w c.data fun g w => do return (Cursor.lineEnd S (← g.toStr) target, w)
    let (_, c, w) ← moveTo S w c ⟨target, offset⟩
    .ok ({ c with at_ := { c.at_ with sticky := newOffset } }, w)
  else .ok (c, w)

/-- src/buffer/cursor.rs:80-110 `move_up`. -/
def moveUp (w : World ξ) (c : Cur) : R (Cur × World ξ) := do
  if c.at_.position.line = 0 then .ok (c, w)
  else
    let target ← subU c.at_.position.line 1
    moveToLine S w c target

/-- src/buffer/cursor.rs:114-139 `move_down`. -/
def moveDown (w : World ξ) (c : Cur) : R (Cur × World ξ) := moveToLine S w c (c.at_.position.line + 1)

/-- src/buffer/cursor.rs:143-154 `move_left`. -/
def moveLeft (w : World ξ) (c : Cur) : R (Cur × World ξ) := do
  if c.at_.position.offset = 0 then .ok (c, w)
  else
    let o ← subU c.at_.position.offset 1
    let (_, c, w) ← moveTo S w c ⟨c.at_.position.line, o⟩
    .ok (c, w)

/-- src/buffer/cursor.rs:158-164 `move_right`. -/
def moveRight (w : World ξ) (c : Cur) : R (Cur × World ξ) := do
  let (_, c, w) ← moveTo S w c ⟨c.at_.position.line, c.at_.position.offset + 1⟩
  .ok (c, w)

/-- src/buffer/cursor.rs:167-173 `move_to_start_of_line`. -/
def moveToStartOfLine (w : World ξ) (c : Cur) : R (Cur × World ξ) := do
  let (_, c, w) ← moveTo S w c ⟨c.at_.position.line, 0⟩
  .ok (c, w)

/-- src/buffer/cursor.rs:176-186 `move_to_end_of_line`. -/
def moveToEndOfLine (w : World ξ) (c : Cur) : R (Cur × World ξ) := do
  let (t, w) ← withRead w c.data fun g w => do return (← g.toStr, w)
  match (strLines t)[c.at_.position.line]? with
  | some l =>
    let (_, c, w) ← moveTo S w c ⟨c.at_.position.line, (S.segs l).length⟩
    .ok (c, w)
  | none => .ok (c, w)

/-- src/buffer/cursor.rs:189-216 `move_to_last_line`. -/
def moveToLastLine (w : World ξ) (c : Cur) : R (Cur × World ξ) := do
  let ((line, length), w) ← withRead w c.data fun g w => do return (Cursor.lastLine (S.segs (← g.toStr)) (0, 0), w)
  let target : Position := if length < c.at_.sticky then ⟨line, length⟩ else ⟨line, c.at_.sticky⟩
  let (_, c, w) ← moveTo S w c target
  .ok (c, w)

/-- src/buffer/cursor.rs:219-244 `move_to_first_line`. -/
def moveToFirstLine (w : World ξ) (c : Cur) : R (Cur × World ξ) := do
  let (length, w) ← withRead w c.data fun g w => do
    return (((strLines (← g.toStr))[0]?.map fun l => (S.segs l).length).getD 0, w)
  let target : Position := if length < c.at_.sticky then ⟨0, length⟩ else ⟨0, c.at_.sticky⟩
  let (_, c, w) ← moveTo S w c target
  .ok (c, w)

/-- One movement. -/
def move (w : World ξ) (c : Cur) : Cursor.Move → R (Cur × World ξ)
  | .to p => do
    let (_, c, w) ← moveTo S w c p
    .ok (c, w)
  | .up => moveUp S w c
  | .down => moveDown S w c
  | .left => moveLeft S w c
  | .right => moveRight S w c
  | .startOfLine => moveToStartOfLine S w c
  | .endOfLine => moveToEndOfLine S w c
  | .lastLine => moveToLastLine S w c
  | .firstLine => moveToFirstLine S w c

end Cur

/-! ## Buffers -/

/-- `Box<dyn Fn(Position)>`: may do anything to the cells it has pointers to (also keep guards alive), and may panic. -/
abbrev Callback (ξ : Type) := Position → World ξ → R (World ξ)

/-- src/buffer/mod.rs:47-56 `Buffer`, the editing part, with its pointers. -/
structure Buf (ξ : Type) where
  data : Ptr
  cursor : Cur
  history : History
  group : Option (List SOp)
  callback : Option (Callback ξ)

namespace Buf
variable (S : Segmenter) (A : Alloc)

/-- src/buffer/mod.rs:58-76 `Default for Buffer`. -/
def new (w : World ξ) (k : Nat) : Buf ξ × World ξ :=
  let (data, w) := w.alloc (GapBuffer.new A k [])
  (⟨data, Cur.new data ⟨0, 0⟩, History.new, none, none⟩, w)

/-- src/buffer/mod.rs:113-137 `from_file`, after `content` has been read. -/
def fromContent (w : World ξ) (k : Nat) (content : Text) : Buf ξ × World ξ :=
  let (data, w) := w.alloc (GapBuffer.new A k content)
  (⟨data, Cur.new data ⟨0, 0⟩, History.new.setMark, none, none⟩, w)

/-- src/buffer/mod.rs:150-152 `data`. -/
def text (w : World ξ) (b : Buf ξ) : R (Text × World ξ) := withRead w b.data fun g w => do return (← g.toStr, w)

/-- src/buffer/mod.rs:303-305 `read`. -/
def read (w : World ξ) (b : Buf ξ) (r : Range) : R (Option Text × World ξ) :=
  withRead w b.data fun g w => do return (← g.read S r, w)

/-- `if let Some(ref callback) = buffer.change_callback { callback(p) }`
(src/buffer/operation/insert.rs:29-31 and others). -/
def report (w : World ξ) (b : Buf ξ) (p : Position) : R (World ξ) :=
  match b.callback with
  | some f => f p w
  | none => .ok w

/-- src/buffer/operation/replace.rs:96-117 `replace_content`. (The state of the allocator is the ghost `clock` of the old gap buffer; no guard is
needed for it.) -/
def replaceContent (w : World ξ) (content : Text) (b : Buf ξ) : R (Buf ξ × World ξ) := do
  let k := (← w.get b.data).value.clock
  let (data, w) := w.alloc (GapBuffer.new A k content)
  let cursor := Cur.new data ⟨0, 0⟩
  let (ok, cursor, w) ← Cur.moveTo S w cursor b.cursor.at_.position
  let (cursor, w) ← if !ok then do
      let (_, c, w) ← Cur.moveTo S w cursor ⟨b.cursor.at_.position.line, 0⟩
      .ok (c, w)
    else .ok (cursor, w)
  let b := { b with data := data, cursor := cursor }
  let w ← report w b Position.new
  .ok (b, w)

/-- `Operation::run` of the simple operations: src/buffer/operation/insert.rs:22-32, delete.rs:20-31, replace.rs:23-25. Each guard is a
temporary of one statement. -/
def runOp (w : World ξ) (b : Buf ξ) : SOp → R (Buf ξ × SOp × World ξ)
  | .insert content position => do
    let w ← withWrite w b.data fun g w => do return (← g.insert S A content position, w)
    let w ← report w b position
    .ok (b, .insert content position, w)
  | .delete _ range => do
    let (content, w) ← withRead w b.data fun g w => do return (← g.read S range, w)
    let w ← withWrite w b.data fun g w => do return (← g.delete S range, w)
    let w ← report w b range.start
    .ok (b, .delete content range, w)
  | .replace old new => do
    let (b, w) ← replaceContent S A w new b
    .ok (b, .replace old new, w)

/-- `Operation::reverse` of the simple operations: src/buffer/operation/insert.rs:37-71, delete.rs:33-45, replace.rs:27-29. -/
def reverseOp (w : World ξ) (b : Buf ξ) : SOp → R (Buf ξ × World ξ)
  | .insert content position => do
    match ← Scribe.Buf.insertEnd S content position with
    | none => .ok (b, w)
    | some stop =>
      let w ← withWrite w b.data fun g w => do return (← g.delete S (Range.new position stop), w)
      let w ← report w b position
      .ok (b, w)
  | .delete content range =>
    match content with
    | some content => do
      let w ← withWrite w b.data fun g w => do return (← g.insert S A content range.start, w)
      let w ← report w b range.start
      .ok (b, w)
    | none => .ok (b, w)
  | .replace old _ => replaceContent S A w old b

/-- src/buffer/operation/group.rs:20-24 `run`. -/
def runAll (w : World ξ) (b : Buf ξ) : List SOp → R (Buf ξ × World ξ)
  | [] => .ok (b, w)
  | op :: ops => do
    let (b, _, w) ← runOp S A w b op
    runAll w b ops

/-- src/buffer/operation/group.rs:27-31 `reverse`, on the already reversed list. -/
def reverseAll (w : World ξ) (b : Buf ξ) : List SOp → R (Buf ξ × World ξ)
  | [] => .ok (b, w)
  | op :: ops => do
    let (b, w) ← reverseOp S A w b op
    reverseAll w b ops

/-- `Operation::run`. -/
def runAny (w : World ξ) (b : Buf ξ) : Op → R (Buf ξ × World ξ)
  | .simple op => do
    let (b, _, w) ← runOp S A w b op
    .ok (b, w)
  | .group ops => runAll S A w b ops

/-- `Operation::reverse`. -/
def reverseAny (w : World ξ) (b : Buf ξ) : Op → R (Buf ξ × World ξ)
  | .simple op => reverseOp S A w b op
  | .group ops => reverseAll S A w b ops.reverse

/-- The `match self.operation_group` at the end of each edit (src/buffer/operation/insert.rs:104-107, delete.rs:130-133, replace.rs:89-92). -/
def store (b : Buf ξ) (op : SOp) : Buf ξ :=
  match b.group with
  | some ops => { b with group := some (ops ++ [op]) }
  | none => { b with history := b.history.add (.simple op) }

/-- src/buffer/operation/insert.rs:97-108 `Buffer::insert`. -/
def insert (w : World ξ) (b : Buf ξ) (s : Text) : R (Buf ξ × World ξ) := do
  let (b, op, w) ← runOp S A w b (.insert s b.cursor.at_.position)
  .ok (b.store op, w)

/-- src/buffer/operation/delete.rs:123-134 `delete_range`. -/
def deleteRange (w : World ξ) (b : Buf ξ) (r : Range) : R (Buf ξ × World ξ) := do
  let (b, op, w) ← runOp S A w b (.delete none r)
  .ok (b.store op, w)

/-- src/buffer/operation/delete.rs:77-100 `delete`. -/
def delete (w : World ξ) (b : Buf ξ) : R (Buf ξ × World ξ) := do
  let stop : Position := ⟨b.cursor.at_.position.line, b.cursor.at_.position.offset + 1⟩
  let (inside, w) ← withRead w b.data fun g w => do return (← g.inBounds S stop, w)
  let stop : Position := if !inside then ⟨stop.line + 1, 0⟩ else stop
  deleteRange S A w b (Range.new b.cursor.at_.position stop)

/-- src/buffer/operation/replace.rs:76-93 `replace`. -/
def replace (w : World ξ) (b : Buf ξ) (content : Text) : R (Buf ξ × World ξ) := do
  let (old, w) ← text w b
  if content = old then .ok (b, w)
  else
    let (old, w) ← text w b
    let (b, op, w) ← runOp S A w b (.replace old content)
    .ok (b.store op, w)

/-- src/buffer/operation/group.rs:69-77 `start_operation_group`. -/
def startGroup (b : Buf ξ) : Buf ξ :=
  match b.group with
  | some _ => b
  | none => { b with group := some [] }

/-- src/buffer/operation/group.rs:82-89 `end_operation_group`. -/
def endGroup (b : Buf ξ) : Buf ξ :=
  match b.group with
  | some ops =>
    let b := { b with group := none }
    if ops.isEmpty then b else { b with history := b.history.add (.group ops) }
  | none => b

/-- src/buffer/mod.rs:243-261 `undo`. -/
def undo (w : World ξ) (b : Buf ξ) : R (Buf ξ × World ξ) := do
  let group := b.group
  let b := { b with group := none }
  match group with
  | some ops =>
    if ops.isEmpty then
      let (op, history) := b.history.back
      let b := { b with history := history }
      match op with
      | some op => reverseAny S A w b op
      | none => .ok (b, w)
    else reverseAny S A w b (.group ops)
  | none =>
    let (op, history) := b.history.back
    let b := { b with history := history }
    match op with
    | some op => reverseAny S A w b op
    | none => .ok (b, w)

/-- src/buffer/mod.rs:279-284 `redo`. -/
def redo (w : World ξ) (b : Buf ξ) : R (Buf ξ × World ξ) := do
  let (op, history) := b.history.forth
  let b := { b with history := history }
  match op with
  | some op => runAny S A w b op
  | none => .ok (b, w)

/-- src/buffer/mod.rs:413-425 `reload`, after `content` has been read. -/
def reloadWith (w : World ξ) (b : Buf ξ) (content : Text) : R (Buf ξ × World ξ) := do
  let (b, w) ← replace S A w b content
  .ok ({ b with history := b.history.setMark }, w)

/-- Calls of the public API that change a buffer, with `f` the callback that `change_callback` is set to by `setCallback true`. -/
def exec (f : Callback ξ) (w : World ξ) (b : Buf ξ) : Scribe.Buf.Cmd → R (Buf ξ × World ξ)
  | .insert s => insert S A w b s
  | .delete => delete S A w b
  | .deleteRange p q => deleteRange S A w b (Range.new p q)
  | .replace c => replace S A w b c
  | .undo => undo S A w b
  | .redo => redo S A w b
  | .startGroup => .ok (b.startGroup, w)
  | .endGroup => .ok (b.endGroup, w)
  | .move m => do
    let (c, w) ← Cur.move S w b.cursor m
    .ok ({ b with cursor := c }, w)
  | .setCursor p => .ok ({ b with cursor := { b.cursor with at_ := { b.cursor.at_ with position := p } } }, w)
  | .setCallback set => .ok ({ b with callback := if set then some f else none }, w)
  | .saved => .ok ({ b with history := b.history.setMark }, w)
  | .reload c => reloadWith S A w b c

/-- A sequence of calls. -/
def execAll (f : Callback ξ) (w : World ξ) (b : Buf ξ) : List Scribe.Buf.Cmd → R (Buf ξ × World ξ)
  | [] => .ok (b, w)
  | c :: cs => do
    let (b, w) ← exec S A f w b c
    execAll f w b cs

end Buf
end Scribe.Shared
