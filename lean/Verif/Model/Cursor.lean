import Verif.Model.GapBuffer
/-!
# The cursor

Models src/buffer/cursor.rs. `Cursor::data` is a shared pointer to the buffer's gap buffer
(`Rc<RefCell<GapBuffer>>`); here the gap buffer is passed to each function instead (`Verif/Model/Shared.lean` has the pointer, and C63 shows that
this makes no difference). `position` is a
public field and `Cursor` implements `DerefMut`, so callers can also assign it without any check.
-/
namespace Scribe

/-- src/buffer/cursor.rs:12-16 `struct Cursor` (without the shared pointer). -/
structure Cursor where
  position : Position
  sticky : Nat
  deriving DecidableEq, Repr

namespace Cursor
variable (S : Segmenter)

/-- src/buffer/cursor.rs:34-40 `Cursor::new`. -/
def new (p : Position) : Cursor := ⟨p, p.offset⟩

/-- src/buffer/cursor.rs:65-76 `move_to`. -/
def moveTo (g : GapBuffer) (c : Cursor) (p : Position) : R (Bool × Cursor) := do
  if ← g.inBounds S p then return (true, ⟨p, p.offset⟩)
  else return (false, c)

/-- The loops at src/buffer/cursor.rs:94-99 and 123-128: cluster count of the target line. -/
def lineEnd (t : Text) (target : Nat) : Nat :=
  ((strLines t)[target]?.map fun l => (S.segs l).length).getD 0

/-- The common part of `move_up` and `move_down` (src/buffer/cursor.rs:87-109 and 116-138). -/
def moveToLine (g : GapBuffer) (c : Cursor) (target : Nat) : R Cursor := do
  let newOffset := c.sticky
  let (ok, c) ← moveTo S g c ⟨target, newOffset⟩
  if !ok then
    let t ← g.toStr
    let (_, c) ← moveTo S g c ⟨target, lineEnd S t target⟩
    return { c with sticky := newOffset }
  else return c

/-- src/buffer/cursor.rs:80-110 `move_up`. -/
def moveUp (g : GapBuffer) (c : Cursor) : R Cursor := do
  if c.position.line = 0 then return c
  else
    let target ← subU c.position.line 1
    moveToLine S g c target

/-- src/buffer/cursor.rs:114-139 `move_down`. -/
def moveDown (g : GapBuffer) (c : Cursor) : R Cursor :=
  moveToLine S g c (c.position.line + 1)

/-- src/buffer/cursor.rs:143-154 `move_left`. -/
def moveLeft (g : GapBuffer) (c : Cursor) : R Cursor := do
  if c.position.offset = 0 then return c
  else
    let o ← subU c.position.offset 1
    return (← moveTo S g c ⟨c.position.line, o⟩).2

/-- src/buffer/cursor.rs:158-164 `move_right`. -/
def moveRight (g : GapBuffer) (c : Cursor) : R Cursor := do
  return (← moveTo S g c ⟨c.position.line, c.position.offset + 1⟩).2

/-- src/buffer/cursor.rs:167-173 `move_to_start_of_line`. -/
def moveToStartOfLine (g : GapBuffer) (c : Cursor) : R Cursor := do
  return (← moveTo S g c ⟨c.position.line, 0⟩).2

/-- src/buffer/cursor.rs:176-186 `move_to_end_of_line`. -/
def moveToEndOfLine (g : GapBuffer) (c : Cursor) : R Cursor := do
  let t ← g.toStr
  match (strLines t)[c.position.line]? with
  | some l => return (← moveTo S g c ⟨c.position.line, (S.segs l).length⟩).2
  | none => return c

/-- The loop at src/buffer/cursor.rs:193-200: line number and length of the last line. -/
def lastLine : List Text → Nat × Nat → Nat × Nat
  | [], x => x
  | c :: cs, (line, length) => if c = ['\n'] then lastLine cs (line + 1, 0) else lastLine cs (line, length + 1)

/-- src/buffer/cursor.rs:189-216 `move_to_last_line`. -/
def moveToLastLine (g : GapBuffer) (c : Cursor) : R Cursor := do
  let t ← g.toStr
  let (line, length) := lastLine (S.segs t) (0, 0)
  let target : Position := if length < c.sticky then ⟨line, length⟩ else ⟨line, c.sticky⟩
  return (← moveTo S g c target).2

/-- src/buffer/cursor.rs:219-244 `move_to_first_line`. -/
def moveToFirstLine (g : GapBuffer) (c : Cursor) : R Cursor := do
  let t ← g.toStr
  let length := ((strLines t)[0]?.map fun l => (S.segs l).length).getD 0
  let target : Position := if length < c.sticky then ⟨0, length⟩ else ⟨0, c.sticky⟩
  return (← moveTo S g c target).2

/-- The cursor movements of the public API. -/
inductive Move where
  | to (p : Position)
  | up | down | left | right | startOfLine | endOfLine | lastLine | firstLine
  deriving DecidableEq, Repr

/-- One movement. -/
def move (g : GapBuffer) (c : Cursor) : Move → R Cursor
  | .to p => do return (← moveTo S g c p).2
  | .up => moveUp S g c
  | .down => moveDown S g c
  | .left => moveLeft S g c
  | .right => moveRight S g c
  | .startOfLine => moveToStartOfLine S g c
  | .endOfLine => moveToEndOfLine S g c
  | .lastLine => moveToLastLine S g c
  | .firstLine => moveToFirstLine S g c

/-- A sequence of movements. -/
def moves (g : GapBuffer) (c : Cursor) : List Move → R Cursor
  | [] => .ok c
  | m :: ms => do moves g (← move S g c m) ms

end Cursor
end Scribe
