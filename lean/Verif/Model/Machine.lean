import Verif.Model.Buffer
/-!
# The same code with machine arithmetic

`Verif/Model/GapBuffer.lean`, `Cursor.lean` and `Buffer.lean` compute with natural numbers. Here every `+` and `-` of that
code is an operation on `usize`, of any width (64 bits on most targets, 32 or 16 on others), in the two ways Rust compiles it: `checked` (debug builds: an overflow panics) and
`wrapping` (release builds: the result is taken modulo 2^width). Function by function the definitions are those of the other
modules with `addW` and `subW` for the operations (the cited lines are the same). Functions without arithmetic are reused.

Sizes of strings and the offsets produced by the iterators of `unicode-segmentation` are never computed by the code itself; they
stay natural numbers.
-/
namespace Scribe.Machine

/-- How overflow is compiled. -/
inductive Mode where
  | checked | wrapping
  deriving DecidableEq, Repr

/-- The width of `usize` on the target the code is compiled for. -/
class Word where
  bits : Nat
  two_le : 2 ≤ bits

/-- 64-bit targets. -/
@[instance_reducible] def word64 : Word := ⟨64, by decide⟩

/-- 32-bit targets. -/
@[instance_reducible] def word32 : Word := ⟨32, by decide⟩

variable [Word]

/-- The number of values of `usize`. -/
def W : Nat := 2 ^ Word.bits

variable (M : Mode)

/-- No allocation, and no `str`, has more than `isize::MAX` bytes; `Vec::reserve` panics with "capacity overflow" otherwise. -/
def maxLen : Nat := 2 ^ (Word.bits - 1) - 1

/-- The outcome of reserving space: `d` is the vector with its spare capacity. -/
def alloc (d : Bytes) : R Bytes := if d.length ≤ maxLen then .ok d else .error .capacity

/-- `a + b` on `usize`. -/
def addW (a b : Nat) : R Nat :=
  if a + b < W then .ok (a + b)
  else match M with
    | .checked => .error .overflow
    | .wrapping => .ok ((a + b) % W)

/-- `a - b` on `usize`. -/
def subW (a b : Nat) : R Nat :=
  if b ≤ a then .ok (a - b)
  else match M with
    | .checked => .error .underflow
    | .wrapping => .ok ((a + W - b) % W)

variable (S : Segmenter) (A : Alloc)

/-- src/buffer/gap_buffer.rs:29-43 `GapBuffer::new`. -/
def new (k : Nat) (t : Text) : R GapBuffer := do
  let bytes := enc t
  let d ← alloc (bytes ++ A.get k bytes.length 0)
  let gl ← subW M d.length bytes.length
  return { data := d, gapStart := bytes.length, gapLength := gl, clock := k + 1 }

/-- src/buffer/gap_buffer.rs:212-225 and 235-248, the loops of `find_offset`. -/
def scan (p : Position) : List Text → Nat → Position → R (Sum Nat Position)
  | [], _, q => .ok (.inr q)
  | g :: gs, off, q =>
    if q.line = p.line ∧ q.offset = p.offset then .ok (.inl off)
    else if g = ['\n'] then do
      let line ← addW M q.line 1
      scan p gs (off + blen g) ⟨line, 0⟩
    else do
      let offset ← addW M q.offset 1
      scan p gs (off + blen g) ⟨q.line, offset⟩

/-- src/buffer/gap_buffer.rs:207-257 `find_offset`. -/
def findOffset (g : GapBuffer) (p : Position) : R (Option Nat) := do
  let first ← slice g.data 0 g.gapStart
  match ← scan M p (S.segs (lossy first)) 0 ⟨0, 0⟩ with
  | .inl off => return some off
  | .inr q =>
    if q.line = p.line ∧ q.offset = p.offset then return some (← addW M g.gapStart g.gapLength)
    else
      let second ← slice g.data (← addW M g.gapStart g.gapLength) g.data.length
      match ← scan M p (S.segs (lossy second)) 0 q with
      | .inl off => return some (← addW M (← addW M g.gapStart g.gapLength) off)
      | .inr q' =>
        if q'.line = p.line ∧ q'.offset = p.offset then return some g.data.length
        else return none

/-- src/buffer/gap_buffer.rs:269-272. -/
def shiftLeft (offset gapLength : Nat) : Nat → Bytes → R Bytes
  | 0, d => .ok d
  | n + 1, d => do
    let x ← getAt d (offset + n)
    let d ← setAt d (← addW M (offset + n) gapLength) x
    let d ← setAt d (offset + n) 0
    shiftLeft offset gapLength n d

/-- src/buffer/gap_buffer.rs:278-281. -/
def shiftRight (gapLength : Nat) : Nat → Nat → Bytes → R Bytes
  | 0, _, d => .ok d
  | n + 1, i, d => do
    let x ← getAt d i
    let j ← subW M i gapLength
    let d ← setAt d j x
    let d ← setAt d i 0
    shiftRight gapLength n (i + 1) d

/-- src/buffer/gap_buffer.rs:259-289 `move_gap`. The loop variables range over `offset..gap_start` and `gap_start + gap_length..offset`; the
number of iterations of such a loop is the difference, or none. -/
def moveGap (g : GapBuffer) (offset : Nat) : R GapBuffer :=
  if g.gapLength = 0 then .ok { g with gapStart := offset }
  else if offset < g.gapStart then do
    let d ← shiftLeft M offset g.gapLength (g.gapStart - offset) g.data
    return { g with data := d, gapStart := offset }
  else if offset > g.gapStart then do
    let first ← addW M g.gapStart g.gapLength
    let d ← shiftRight M g.gapLength (offset - first) first g.data
    let gs ← subW M offset g.gapLength
    return { g with data := d, gapStart := gs }
  else .ok g

/-- src/buffer/gap_buffer.rs:291-297 `write_to_gap`. -/
def writeToGap : Bytes → GapBuffer → R GapBuffer
  | [], g => .ok g
  | b :: bs, g => do
    let d ← setAt g.data g.gapStart b
    let gs ← addW M g.gapStart 1
    let gl ← subW M g.gapLength 1
    writeToGap bs { g with data := d, gapStart := gs, gapLength := gl }

/-- src/buffer/gap_buffer.rs:60-77. -/
def grow (g : GapBuffer) (n : Nat) : R GapBuffer := do
  if n > g.gapLength then
    let g ← moveGap M g g.data.length
    let d ← alloc (g.data ++ A.get g.clock g.data.length n)
    let gl ← subW M d.length g.gapStart
    return { data := d, gapStart := g.gapStart, gapLength := gl, clock := g.clock + 1 }
  else return g

/-- src/buffer/gap_buffer.rs:58-86 `insert`. -/
def insert (g : GapBuffer) (s : Text) (p : Position) : R GapBuffer := do
  let g ← grow M A g (blen s)
  match ← findOffset M S g p with
  | none => return g
  | some offset =>
    let g ← moveGap M g offset
    writeToGap M (enc s) g

/-- src/buffer/gap_buffer.rs:104-134 `read`. -/
def read (g : GapBuffer) (r : Range) : R (Option Text) := do
  match ← findOffset M S g r.start with
  | none => return none
  | some so =>
    match ← findOffset M S g r.stop with
    | none => return none
    | some eo =>
      if so < g.gapStart ∧ g.gapStart < eo then
        let first ← slice g.data so g.gapStart
        let second ← slice g.data (← addW M g.gapStart g.gapLength) eo
        return some (lossy first ++ lossy second)
      else
        let d ← slice g.data so eo
        return some (lossy d)

/-- src/buffer/gap_buffer.rs:152-186 `delete`. -/
def delete (g : GapBuffer) (r : Range) : R GapBuffer := do
  match ← findOffset M S g r.start with
  | none => return g
  | some so =>
    let g ← moveGap M g so
    match ← findOffset M S g r.stop with
    | some eo =>
      let gl ← subW M eo g.gapStart
      return { g with gapLength := gl }
    | none =>
      let line ← addW M r.stop.line 1
      match ← findOffset M S g ⟨line, 0⟩ with
      | some eo =>
        let gl ← subW M eo g.gapStart
        return { g with gapLength := gl }
      | none =>
        let gl ← subW M g.data.length g.gapStart
        return { g with gapLength := gl }

/-- src/buffer/gap_buffer.rs:202-204 `in_bounds`. -/
def inBounds (g : GapBuffer) (p : Position) : R Bool := do
  return (← findOffset M S g p).isSome

/-- src/buffer/gap_buffer.rs:300-307 `Display`. -/
def toStr (g : GapBuffer) : R Text := do
  let first ← slice g.data 0 g.gapStart
  let second ← slice g.data (← addW M g.gapStart g.gapLength) g.data.length
  return lossy first ++ lossy second

open GapBuffer (Call Obs)

/-- One API call. -/
def call (g : GapBuffer) : Call → R (Obs × GapBuffer)
  | .insert s p => do return (.done, ← insert M S A g s p)
  | .delete p q => do return (.done, ← delete M S g (Range.new p q))
  | .read p q => do return (.opt (← read M S g (Range.new p q)), g)
  | .inBounds p => do return (.bool (← inBounds M S g p), g)
  | .toStr => do return (.text (← toStr M g), g)

/-- A sequence of API calls. -/
def run (g : GapBuffer) : List Call → R (List Obs × GapBuffer)
  | [] => .ok ([], g)
  | c :: cs => do
    let (o, g) ← call M S A g c
    let (os, g) ← run g cs
    return (o :: os, g)

/-! ## Cursor -/

/-- src/buffer/cursor.rs:65-76 `move_to`. -/
def moveTo (g : GapBuffer) (c : Cursor) (p : Position) : R (Bool × Cursor) := do
  if ← inBounds M S g p then return (true, ⟨p, p.offset⟩)
  else return (false, c)

/-- src/buffer/cursor.rs:87-109 and 116-138. -/
def moveToLine (g : GapBuffer) (c : Cursor) (target : Nat) : R Cursor := do
  let newOffset := c.sticky
  let (ok, c) ← moveTo M S g c ⟨target, newOffset⟩
  if !ok then
    let t ← toStr M g
    let (_, c) ← moveTo M S g c ⟨target, Cursor.lineEnd S t target⟩
    return { c with sticky := newOffset }
  else return c

/-- src/buffer/cursor.rs:193-200. -/
def lastLine : List Text → Nat × Nat → R (Nat × Nat)
  | [], x => .ok x
  | c :: cs, (line, length) =>
    if c = ['\n'] then do
      let line ← addW M line 1
      lastLine cs (line, 0)
    else do
      let length ← addW M length 1
      lastLine cs (line, length)

/-- src/buffer/cursor.rs:65-244, the movements. -/
def move (g : GapBuffer) (c : Cursor) : Cursor.Move → R Cursor
  | .to p => do return (← moveTo M S g c p).2
  | .up => do
    if c.position.line = 0 then return c
    else
      let target ← subW M c.position.line 1
      moveToLine M S g c target
  | .down => do
    let target ← addW M c.position.line 1
    moveToLine M S g c target
  | .left => do
    if c.position.offset = 0 then return c
    else
      let o ← subW M c.position.offset 1
      return (← moveTo M S g c ⟨c.position.line, o⟩).2
  | .right => do
    let o ← addW M c.position.offset 1
    return (← moveTo M S g c ⟨c.position.line, o⟩).2
  | .startOfLine => do return (← moveTo M S g c ⟨c.position.line, 0⟩).2
  | .endOfLine => do
    let t ← toStr M g
    match (strLines t)[c.position.line]? with
    | some l => return (← moveTo M S g c ⟨c.position.line, (S.segs l).length⟩).2
    | none => return c
  | .lastLine => do
    let t ← toStr M g
    let (line, length) ← lastLine M (S.segs t) (0, 0)
    let target : Position := if length < c.sticky then ⟨line, length⟩ else ⟨line, c.sticky⟩
    return (← moveTo M S g c target).2
  | .firstLine => do
    let t ← toStr M g
    let length := ((strLines t)[0]?.map fun l => (S.segs l).length).getD 0
    let target : Position := if length < c.sticky then ⟨0, length⟩ else ⟨0, c.sticky⟩
    return (← moveTo M S g c target).2

/-! ## Buffer -/

/-- src/buffer/mod.rs:58-76. -/
def newBuf (k : Nat) : R Buf := do return ⟨← new M A k [], Cursor.new ⟨0, 0⟩, History.new, none, false, []⟩

/-- src/buffer/mod.rs:113-137. -/
def fromContent (k : Nat) (content : Text) : R Buf := do
  return ⟨← new M A k content, Cursor.new ⟨0, 0⟩, History.new.setMark, none, false, []⟩

/-- src/buffer/operation/replace.rs:96-117 `replace_content`. -/
def replaceContent (content : Text) (b : Buf) : R Buf := do
  let data ← new M A b.data.clock content
  let cursor := Cursor.new ⟨0, 0⟩
  let (ok, cursor) ← moveTo M S data cursor b.cursor.position
  let cursor ← if !ok then do
      let (_, c) ← moveTo M S data cursor ⟨b.cursor.position.line, 0⟩
      pure c
    else pure cursor
  return { b with data := data, cursor := cursor }.report Position.new

/-- src/buffer/operation/insert.rs:22-32, delete.rs:20-31, replace.rs:23-25. -/
def runOp (b : Buf) : SOp → R (Buf × SOp)
  | .insert content position => do
    let data ← insert M S A b.data content position
    return ({ b with data := data }.report position, .insert content position)
  | .delete _ range => do
    let content ← read M S b.data range
    let data ← delete M S b.data range
    return ({ b with data := data }.report range.start, .delete content range)
  | .replace old new => do
    let b ← replaceContent M S A new b
    return (b, .replace old new)

/-- src/buffer/operation/insert.rs:37-61. -/
def insertEnd (content : Text) (p : Position) : R (Option Position) := do
  let lineCount ← addW M (countNl content) 1
  let endLine ← subW M (← addW M p.line lineCount) 1
  if lineCount = 1 then
    let offset ← addW M p.offset (S.segs content).length
    return some ⟨endLine, offset⟩
  else
    match (splitNl content).getLast? with
    | some line => return some ⟨endLine, (S.segs line).length⟩
    | none => return none

/-- src/buffer/operation/insert.rs:37-71, delete.rs:33-45, replace.rs:27-29. -/
def reverseOp (b : Buf) : SOp → R Buf
  | .insert content position => do
    match ← insertEnd M S content position with
    | none => return b
    | some stop =>
      let data ← delete M S b.data (Range.new position stop)
      return { b with data := data }.report position
  | .delete content range =>
    match content with
    | some content => do
      let data ← insert M S A b.data content range.start
      return { b with data := data }.report range.start
    | none => return b
  | .replace old _ => replaceContent M S A old b

/-- src/buffer/operation/group.rs:20-24. -/
def runAll (b : Buf) : List SOp → R Buf
  | [] => return b
  | op :: ops => do
    let (b, _) ← runOp M S A b op
    runAll b ops

/-- src/buffer/operation/group.rs:27-31. -/
def reverseAll (b : Buf) : List SOp → R Buf
  | [] => return b
  | op :: ops => do
    let b ← reverseOp M S A b op
    reverseAll b ops

/-- `Operation::run`. -/
def runAny (b : Buf) : Op → R Buf
  | .simple op => do return (← runOp M S A b op).1
  | .group ops => runAll M S A b ops

/-- `Operation::reverse`. -/
def reverseAny (b : Buf) : Op → R Buf
  | .simple op => reverseOp M S A b op
  | .group ops => reverseAll M S A b ops.reverse

/-- src/buffer/operation/insert.rs:97-108. -/
def bufInsert (b : Buf) (s : Text) : R Buf := do
  let (b, op) ← runOp M S A b (.insert s b.cursor.position)
  return b.store op

/-- src/buffer/operation/delete.rs:123-134. -/
def deleteRange (b : Buf) (r : Range) : R Buf := do
  let (b, op) ← runOp M S A b (.delete none r)
  return b.store op

/-- src/buffer/operation/delete.rs:77-100. -/
def bufDelete (b : Buf) : R Buf := do
  let offset ← addW M b.cursor.position.offset 1
  if ← inBounds M S b.data ⟨b.cursor.position.line, offset⟩ then
    deleteRange M S A b (Range.new b.cursor.position ⟨b.cursor.position.line, offset⟩)
  else
    let line ← addW M b.cursor.position.line 1
    deleteRange M S A b (Range.new b.cursor.position ⟨line, 0⟩)

/-- src/buffer/operation/replace.rs:76-93. -/
def replace (b : Buf) (content : Text) : R Buf := do
  let old ← toStr M b.data
  if content = old then return b
  else
    let (b, op) ← runOp M S A b (.replace old content)
    return b.store op

/-- src/buffer/mod.rs:243-261. -/
def undo (b : Buf) : R Buf := do
  let group := b.group
  let b := { b with group := none }
  match group with
  | some ops =>
    if ops.isEmpty then
      let (op, history) := b.history.back
      let b := { b with history := history }
      match op with
      | some op => reverseAny M S A b op
      | none => return b
    else reverseAny M S A b (.group ops)
  | none =>
    let (op, history) := b.history.back
    let b := { b with history := history }
    match op with
    | some op => reverseAny M S A b op
    | none => return b

/-- src/buffer/mod.rs:279-284. -/
def redo (b : Buf) : R Buf := do
  let (op, history) := b.history.forth
  let b := { b with history := history }
  match op with
  | some op => runAny M S A b op
  | none => return b

/-- src/buffer/mod.rs:388-390. -/
def lineCount (b : Buf) : R Nat := do addW M (countNl (← toStr M b.data)) 1

/-- One call. -/
def exec (b : Buf) : Buf.Cmd → R Buf
  | .insert s => bufInsert M S A b s
  | .delete => bufDelete M S A b
  | .deleteRange p q => deleteRange M S A b (Range.new p q)
  | .replace c => replace M S A b c
  | .undo => undo M S A b
  | .redo => redo M S A b
  | .startGroup => .ok b.startGroup
  | .endGroup => .ok b.endGroup
  | .move m => do return { b with cursor := ← move M S b.data b.cursor m }
  | .setCursor p => .ok { b with cursor := { b.cursor with position := p } }
  | .setCallback set => .ok { b with callback := set }
  | .saved => .ok b.setMark
  | .reload c => do return (← replace M S A b c).setMark

/-- A sequence of calls. -/
def execAll (b : Buf) : List Buf.Cmd → R Buf
  | [] => .ok b
  | c :: cs => do execAll (← exec M S A b c) cs

/-! ## Positions -/

/-- src/buffer/position.rs:32-47 and 49-58. -/
def posAdd (p : Position) (d : Distance) : R Position := do
  let offset ← if d.lines > 0 then pure d.offset else addW M p.offset d.offset
  let line ← addW M p.line d.lines
  return ⟨line, offset⟩

/-- src/buffer/line_range.rs:78-89 `to_inclusive_range`. -/
def toInclusiveRange (r : LineRange) : R Range := do
  let stop ← addW M r.stop 1
  return Range.new ⟨r.start, 0⟩ ⟨stop, 0⟩

end Scribe.Machine
