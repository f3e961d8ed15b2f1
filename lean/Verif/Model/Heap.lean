import Verif.Model.Buffer
/-!
# Reference counts

The gap buffer of a `Buffer` is behind an `Rc` that the buffer and its cursor share. `Cursor` is `Clone` and its pointer is public (src/buffer/cursor.rs:11-16), so there can be
any number of others. Here every `Rc::new`, `Rc::clone` and drop is explicit, a gap buffer is freed when its count falls to zero, and the use or the drop of a freed one is a
fault. (Rust's ownership rules exclude such faults; here it is proved.) `RefCell` borrows are in `Model/Shared.lean`.
-/
namespace Scribe.Heap

abbrev Ref := Nat

/-- A cell of the heap: a count and a gap buffer, until it is freed. -/
inductive Slot where
  | live (count : Nat) (g : GapBuffer)
  | freed
  deriving DecidableEq, Repr

abbrev Store := List Slot

/-- What can go wrong. -/
inductive Fault where
  | panic (p : Panic)
  /-- use or drop of something that is freed -/
  | dangling
  deriving DecidableEq, Repr

abbrev HR := Except Fault

def lift {α : Type} : R α → HR α
  | .ok a => .ok a
  | .error e => .error (.panic e)

/-- `Rc::new`. -/
def rcNew (h : Store) (g : GapBuffer) : Ref × Store := (h.length, h ++ [.live 1 g])

/-- `Rc::clone`. -/
def rcClone (h : Store) (p : Ref) : HR Store :=
  match h[p]? with
  | some (.live n g) => .ok (h.set p (.live (n + 1) g))
  | _ => .error .dangling

/-- The drop of an `Rc`. -/
def rcDrop (h : Store) (p : Ref) : HR Store :=
  match h[p]? with
  | some (.live n g) => .ok (h.set p (if n ≤ 1 then .freed else .live (n - 1) g))
  | _ => .error .dangling

def rcDrops (h : Store) : List Ref → HR Store
  | [] => .ok h
  | p :: ps => do rcDrops (← rcDrop h p) ps

/-- Access through an `Rc`. -/
def get (h : Store) (p : Ref) : HR GapBuffer :=
  match h[p]? with
  | some (.live _ g) => .ok g
  | _ => .error .dangling

def put (h : Store) (p : Ref) (g : GapBuffer) : HR Store :=
  match h[p]? with
  | some (.live n _) => .ok (h.set p (.live n g))
  | _ => .error .dangling

/-- src/buffer/cursor.rs:11-16 `Cursor`. -/
structure HCursor where
  data : Ref
  at_ : Cursor
  deriving DecidableEq, Repr

/-- src/buffer/mod.rs:47-56 `Buffer`. Of the callback there are the pointers that it has captured. -/
structure HBuf where
  data : Ref
  cursor : HCursor
  history : History
  group : Option (List SOp)
  callback : Option (List Ref)
  log : List Position
  deriving DecidableEq, Repr

/-- The drop of a cursor: of its pointer. -/
def HCursor.drop (h : Store) (c : HCursor) : HR Store := rcDrop h c.data

namespace HBuf
variable (S : Segmenter) (A : Alloc)

/-- The drop of a buffer: of its fields, in the order of their declaration (src/buffer/mod.rs:47-56). -/
def drop (h : Store) (b : HBuf) : HR Store := do
  let h ← rcDrop h b.data
  let h ← b.cursor.drop h
  rcDrops h (b.callback.getD [])

/-- src/buffer/mod.rs:58-76 `Default for Buffer`: the variable `data` is dropped at the end. -/
def new (h : Store) (k : Nat) : HR (HBuf × Store) := do
  let (data, h) := rcNew h (GapBuffer.new A k [])
  let h ← rcClone h data
  let cursor : HCursor := ⟨data, Cursor.new ⟨0, 0⟩⟩
  let h ← rcClone h data
  let b : HBuf := ⟨data, cursor, History.new, none, none, []⟩
  let h ← rcDrop h data
  return (b, h)

/-- src/buffer/mod.rs:113-137 `from_file`, after `content` has been read. If `path.canonicalize()` fails (line 123), the pointer of the field `data`, which is
there already, the cursor and the variable `data` are dropped. -/
def fromFile (h : Store) (k : Nat) (content : Text) (canonical : Bool) : HR (Option HBuf × Store) := do
  let (data, h) := rcNew h (GapBuffer.new A k content)
  let h ← rcClone h data
  let cursor : HCursor := ⟨data, Cursor.new ⟨0, 0⟩⟩
  let h ← rcClone h data
  if canonical then
    let h ← rcDrop h data
    return (some ⟨data, cursor, History.new.setMark, none, none, []⟩, h)
  else
    let h ← rcDrop h data
    let h ← cursor.drop h
    let h ← rcDrop h data
    return (none, h)

/-- The use of pointers. -/
def touch (h : Store) : List Ref → HR Unit
  | [] => .ok ()
  | q :: qs => do
    let _ ← get h q
    touch h qs

/-- The call of the callback, which may use what it has captured. -/
def report (h : Store) (b : HBuf) (p : Position) : HR HBuf :=
  match b.callback with
  | none => .ok b
  | some ps => do
    touch h ps
    return { b with log := b.log ++ [p] }

/-- src/buffer/operation/replace.rs:96-117 `replace_content`. The old gap buffer is looked at only for the clock of the allocator (`Model/Buffer.lean`). -/
def replaceContent (h : Store) (content : Text) (b : HBuf) : HR (HBuf × Store) := do
  let (data, h) := rcNew h (GapBuffer.new A (← get h b.data).clock content)
  let h ← rcClone h data
  let cursor := Cursor.new ⟨0, 0⟩
  let (ok, cursor) ← lift (Cursor.moveTo S (← get h data) cursor b.cursor.at_.position)
  let cursor ← if !ok then do
      let (_, c) ← lift (Cursor.moveTo S (← get h data) cursor ⟨b.cursor.at_.position.line, 0⟩)
      pure c
    else pure cursor
  -- buffer.data = data
  let h ← rcDrop h b.data
  -- buffer.cursor = cursor
  let h ← b.cursor.drop h
  let b ← report h { b with data := data, cursor := ⟨data, cursor⟩ } Position.new
  return (b, h)

/-- `Operation::run`: src/buffer/operation/insert.rs:22-32, delete.rs:20-31, replace.rs:23-25. -/
def runOp (h : Store) (b : HBuf) : SOp → HR (HBuf × SOp × Store)
  | .insert content position => do
    let g ← lift ((← get h b.data).insert S A content position)
    let h ← put h b.data g
    return (← report h b position, .insert content position, h)
  | .delete _ range => do
    let content ← lift ((← get h b.data).read S range)
    let g ← lift ((← get h b.data).delete S range)
    let h ← put h b.data g
    return (← report h b range.start, .delete content range, h)
  | .replace old new => do
    let (b, h) ← replaceContent S A h new b
    return (b, .replace old new, h)

/-- `Operation::reverse`: src/buffer/operation/insert.rs:37-71, delete.rs:33-45, replace.rs:27-29. -/
def reverseOp (h : Store) (b : HBuf) : SOp → HR (HBuf × Store)
  | .insert content position => do
    match ← lift (Buf.insertEnd S content position) with
    | none => return (b, h)
    | some stop =>
      let g ← lift ((← get h b.data).delete S (Range.new position stop))
      let h ← put h b.data g
      return (← report h b position, h)
  | .delete content range =>
    match content with
    | some content => do
      let g ← lift ((← get h b.data).insert S A content range.start)
      let h ← put h b.data g
      return (← report h b range.start, h)
    | none => return (b, h)
  | .replace old _ => replaceContent S A h old b

/-- src/buffer/operation/group.rs:20-24 `run`. -/
def runAll (h : Store) (b : HBuf) : List SOp → HR (HBuf × Store)
  | [] => return (b, h)
  | op :: ops => do
    let (b, _, h) ← runOp S A h b op
    runAll h b ops

/-- src/buffer/operation/group.rs:27-31 `reverse`, on the already reversed list. -/
def reverseAll (h : Store) (b : HBuf) : List SOp → HR (HBuf × Store)
  | [] => return (b, h)
  | op :: ops => do
    let (b, h) ← reverseOp S A h b op
    reverseAll h b ops

/-- `Operation::run`. -/
def runAny (h : Store) (b : HBuf) : Op → HR (HBuf × Store)
  | .simple op => do
    let (b, _, h) ← runOp S A h b op
    return (b, h)
  | .group ops => runAll S A h b ops

/-- `Operation::reverse`. -/
def reverseAny (h : Store) (b : HBuf) : Op → HR (HBuf × Store)
  | .simple op => reverseOp S A h b op
  | .group ops => reverseAll S A h b ops.reverse

/-- src/buffer/operation/insert.rs:104-107, delete.rs:130-133, replace.rs:89-92. -/
def store (b : HBuf) (op : SOp) : HBuf :=
  match b.group with
  | some ops => { b with group := some (ops ++ [op]) }
  | none => { b with history := b.history.add (.simple op) }

/-- Running an operation and keeping it: src/buffer/operation/insert.rs:97-108, delete.rs:123-134, replace.rs:84-92. -/
def edit (h : Store) (b : HBuf) (op : SOp) : HR (HBuf × Store) := do
  let (b, op, h) ← runOp S A h b op
  return (b.store op, h)

/-- src/buffer/operation/delete.rs:77-100 `delete`. -/
def delete (h : Store) (b : HBuf) : HR (HBuf × Store) := do
  let p := b.cursor.at_.position
  let stop : Position := ⟨p.line, p.offset + 1⟩
  let stop : Position := if !(← lift ((← get h b.data).inBounds S stop)) then ⟨stop.line + 1, 0⟩ else stop
  edit S A h b (.delete none (Range.new p stop))

/-- src/buffer/operation/replace.rs:76-93 `replace`. -/
def replace (h : Store) (b : HBuf) (content : Text) : HR (HBuf × Store) := do
  let old ← lift (← get h b.data).toStr
  if content = old then return (b, h)
  else edit S A h b (.replace old content)

/-- src/buffer/operation/group.rs:69-77 `start_operation_group`. -/
def startGroup (b : HBuf) : HBuf :=
  match b.group with
  | some _ => b
  | none => { b with group := some [] }

/-- src/buffer/operation/group.rs:82-89 `end_operation_group`. -/
def endGroup (b : HBuf) : HBuf :=
  match b.group with
  | some ops =>
    let b := { b with group := none }
    if ops.isEmpty then b else { b with history := b.history.add (.group ops) }
  | none => b

/-- The last step of the history taken back: src/buffer/mod.rs:253-256. -/
def pop (h : Store) (b : HBuf) : HR (HBuf × Store) :=
  let (op, history) := b.history.back
  let b := { b with history := history }
  match op with
  | some op => reverseAny S A h b op
  | none => .ok (b, h)

/-- src/buffer/mod.rs:243-261 `undo`. -/
def undo (h : Store) (b : HBuf) : HR (HBuf × Store) :=
  let group := b.group
  let b := { b with group := none }
  match group with
  | some ops => if ops.isEmpty then pop S A h b else reverseAny S A h b (.group ops)
  | none => pop S A h b

/-- src/buffer/mod.rs:279-284 `redo`. -/
def redo (h : Store) (b : HBuf) : HR (HBuf × Store) :=
  let (op, history) := b.history.forth
  let b := { b with history := history }
  match op with
  | some op => runAny S A h b op
  | none => .ok (b, h)

/-- One call. Setting the callback to one that captures nothing, or to `None`, drops the old one (src/buffer/mod.rs:55). -/
def exec (h : Store) (b : HBuf) : Buf.Cmd → HR (HBuf × Store)
  | .insert s => edit S A h b (.insert s b.cursor.at_.position)
  | .delete => delete S A h b
  | .deleteRange p q => edit S A h b (.delete none (Range.new p q))
  | .replace c => replace S A h b c
  | .undo => undo S A h b
  | .redo => redo S A h b
  | .startGroup => .ok (b.startGroup, h)
  | .endGroup => .ok (b.endGroup, h)
  | .move m => do
    let c ← lift (Cursor.move S (← get h b.cursor.data) b.cursor.at_ m)
    return ({ b with cursor := { b.cursor with at_ := c } }, h)
  | .setCursor p => .ok ({ b with cursor := { b.cursor with at_ := { b.cursor.at_ with position := p } } }, h)
  | .setCallback set => do
    let h ← rcDrops h (b.callback.getD [])
    return ({ b with callback := if set then some [] else none }, h)
  | .saved => .ok ({ b with history := b.history.setMark }, h)
  | .reload c => do
    let (b, h) ← replace S A h b c
    return ({ b with history := b.history.setMark }, h)

/-- A sequence of calls. -/
def execAll (h : Store) (b : HBuf) : List Buf.Cmd → HR (HBuf × Store)
  | [] => .ok (b, h)
  | c :: cs => do
    let (b, h) ← exec S A h b c
    execAll h b cs

end HBuf

/-! ## Programs -/

/-- All that a program holds: buffers, cursors outside of buffers, and bare pointers. -/
structure Owners where
  store : Store
  buffers : List HBuf
  cursors : List HCursor
  refs : List Ref
  deriving DecidableEq, Repr

/-- What a program can do. Things are named by their number; if there is no such thing, nothing happens. -/
inductive Step where
  | new (clock : Nat)
  /-- `Buffer::from_file` of a file that can be read; whether `canonicalize` succeeds -/
  | fromFile (clock : Nat) (content : Text) (canonical : Bool)
  | call (i : Nat) (c : Buf.Cmd)
  /-- `buffers[i].cursor.clone()` -/
  | cloneCursor (i : Nat)
  /-- `cursors[j].clone()` -/
  | copyCursor (j : Nat)
  /-- `buffers[i].cursor = cursors[j]` (moved) -/
  | assign (i j : Nat)
  | moveCursor (j : Nat) (m : Cursor.Move)
  | dropCursor (j : Nat)
  /-- `cursors[j].data.clone()` -/
  | cloneRef (j : Nat)
  /-- `Rc::new(RefCell::new(GapBuffer::new(..)))` -/
  | newRef (clock : Nat) (t : Text)
  /-- `Cursor::new(refs[k], p)` (moved) -/
  | cursorOf (k : Nat) (p : Position)
  /-- a call on the gap buffer of `refs[k]` -/
  | edit (k : Nat) (c : GapBuffer.Call)
  | dropRef (k : Nat)
  /-- a callback that captures the first `n` of the pointers -/
  | callback (i n : Nat)
  | dropBuffer (i : Nat)
  deriving DecidableEq, Repr

variable (S : Segmenter) (A : Alloc)

/-- One step. -/
def Owners.step (o : Owners) : Step → HR Owners
  | .new k => do
    let (b, h) ← HBuf.new A o.store k
    return { o with store := h, buffers := o.buffers ++ [b] }
  | .fromFile k t canonical => do
    let (b, h) ← HBuf.fromFile A o.store k t canonical
    return { o with store := h, buffers := o.buffers ++ b.toList }
  | .call i c =>
    match o.buffers[i]? with
    | none => .ok o
    | some b => do
      let (b, h) ← b.exec S A o.store c
      return { o with store := h, buffers := o.buffers.set i b }
  | .cloneCursor i =>
    match o.buffers[i]? with
    | none => .ok o
    | some b => do return { o with store := ← rcClone o.store b.cursor.data, cursors := o.cursors ++ [b.cursor] }
  | .copyCursor j =>
    match o.cursors[j]? with
    | none => .ok o
    | some c => do return { o with store := ← rcClone o.store c.data, cursors := o.cursors ++ [c] }
  | .assign i j =>
    match o.buffers[i]?, o.cursors[j]? with
    | some b, some c => do
      let h ← b.cursor.drop o.store
      return { o with store := h, buffers := o.buffers.set i { b with cursor := c }, cursors := o.cursors.eraseIdx j }
    | _, _ => .ok o
  | .moveCursor j m =>
    match o.cursors[j]? with
    | none => .ok o
    | some c => do
      let at' ← lift (Cursor.move S (← get o.store c.data) c.at_ m)
      return { o with cursors := o.cursors.set j { c with at_ := at' } }
  | .dropCursor j =>
    match o.cursors[j]? with
    | none => .ok o
    | some c => do return { o with store := ← c.drop o.store, cursors := o.cursors.eraseIdx j }
  | .cloneRef j =>
    match o.cursors[j]? with
    | none => .ok o
    | some c => do return { o with store := ← rcClone o.store c.data, refs := o.refs ++ [c.data] }
  | .newRef k t =>
    let (p, h) := rcNew o.store (GapBuffer.new A k t)
    .ok { o with store := h, refs := o.refs ++ [p] }
  | .cursorOf k p =>
    match o.refs[k]? with
    | none => .ok o
    | some q => .ok { o with cursors := o.cursors ++ [⟨q, Cursor.new p⟩], refs := o.refs.eraseIdx k }
  | .edit k c =>
    match o.refs[k]? with
    | none => .ok o
    | some q => do
      let (_, g) ← lift (GapBuffer.call S A (← get o.store q) c)
      return { o with store := ← put o.store q g }
  | .dropRef k =>
    match o.refs[k]? with
    | none => .ok o
    | some q => do return { o with store := ← rcDrop o.store q, refs := o.refs.eraseIdx k }
  | .callback i n =>
    match o.buffers[i]? with
    | none => .ok o
    | some b => do
      let h ← rcDrops o.store (b.callback.getD [])
      return { o with store := h, buffers := o.buffers.set i { b with callback := some (o.refs.take n) }, refs := o.refs.drop n }
  | .dropBuffer i =>
    match o.buffers[i]? with
    | none => .ok o
    | some b => do return { o with store := ← b.drop o.store, buffers := o.buffers.eraseIdx i }

/-- A program. -/
def Owners.steps (o : Owners) : List Step → HR Owners
  | [] => .ok o
  | c :: cs => do Owners.steps (← o.step S A c) cs

/-- Nothing yet. -/
def Owners.none : Owners := ⟨[], [], [], []⟩

end Scribe.Heap
