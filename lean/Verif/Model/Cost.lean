import Verif.Model.GapBuffer
/-!
# The gap buffer with a counter of bytes copied

The functions of `Verif/Model/GapBuffer.lean` that write to the block, with a counter: one for each iteration of the loops of `move_gap` and
`write_to_gap`, and the size of the old block for a reallocation (`realloc` copies at most that). Looking up positions, which reads the text up to
the position, is not counted.
-/
namespace Scribe.GapBuffer
variable (S : Segmenter) (A : Alloc)

/-- The loop at src/buffer/gap_buffer.rs:269-272. -/
def shiftLeftC (offset gapLength : Nat) : Nat → Bytes → Nat → R (Bytes × Nat)
  | 0, d, cost => .ok (d, cost)
  | n + 1, d, cost => do
    let x ← getAt d (offset + n)
    let d ← setAt d (offset + n + gapLength) x
    let d ← setAt d (offset + n) 0
    shiftLeftC offset gapLength n d (cost + 1)

/-- The loop at src/buffer/gap_buffer.rs:278-281. -/
def shiftRightC (gapLength : Nat) : Nat → Nat → Bytes → Nat → R (Bytes × Nat)
  | 0, _, d, cost => .ok (d, cost)
  | n + 1, i, d, cost => do
    let x ← getAt d i
    let j ← subU i gapLength
    let d ← setAt d j x
    let d ← setAt d i 0
    shiftRightC gapLength n (i + 1) d (cost + 1)

/-- src/buffer/gap_buffer.rs:259-289 `move_gap`. -/
def moveGapC (g : GapBuffer) (offset : Nat) (cost : Nat) : R (GapBuffer × Nat) :=
  if g.gapLength = 0 then .ok ({ g with gapStart := offset }, cost)
  else if offset < g.gapStart then do
    let (d, cost) ← shiftLeftC offset g.gapLength (g.gapStart - offset) g.data cost
    return ({ g with data := d, gapStart := offset }, cost)
  else if offset > g.gapStart then do
    let (d, cost) ← shiftRightC g.gapLength (offset - (g.gapStart + g.gapLength)) (g.gapStart + g.gapLength) g.data cost
    let gs ← subU offset g.gapLength
    return ({ g with data := d, gapStart := gs }, cost)
  else .ok (g, cost)

/-- src/buffer/gap_buffer.rs:291-297 `write_to_gap`. -/
def writeToGapC : Bytes → GapBuffer → Nat → R (GapBuffer × Nat)
  | [], g, cost => .ok (g, cost)
  | b :: bs, g, cost => do
    let d ← setAt g.data g.gapStart b
    let gl ← subU g.gapLength 1
    writeToGapC bs { g with data := d, gapStart := g.gapStart + 1, gapLength := gl } (cost + 1)

/-- src/buffer/gap_buffer.rs:60-77, the reallocation at the start of `insert`. -/
def growC (g : GapBuffer) (n : Nat) (cost : Nat) : R (GapBuffer × Nat) := do
  if n > g.gapLength then
    let (g, cost) ← moveGapC g g.data.length cost
    let d := g.data ++ A.get g.clock g.data.length n
    let gl ← subU d.length g.gapStart
    return ({ data := d, gapStart := g.gapStart, gapLength := gl, clock := g.clock + 1 }, cost + g.data.length)
  else return (g, cost)

/-- src/buffer/gap_buffer.rs:58-86 `insert`. -/
def insertC (g : GapBuffer) (s : Text) (p : Position) (cost : Nat) : R (GapBuffer × Nat) := do
  let (g, cost) ← growC A g (blen s) cost
  match ← findOffset S g p with
  | none => return (g, cost)
  | some offset =>
    let (g, cost) ← moveGapC g offset cost
    writeToGapC (enc s) g cost

/-- src/buffer/gap_buffer.rs:152-186 `delete`. -/
def deleteC (g : GapBuffer) (r : Range) (cost : Nat) : R (GapBuffer × Nat) := do
  match ← findOffset S g r.start with
  | none => return (g, cost)
  | some so =>
    let (g, cost) ← moveGapC g so cost
    match ← findOffset S g r.stop with
    | some eo =>
      let gl ← subU eo g.gapStart
      return ({ g with gapLength := gl }, cost)
    | none =>
      match ← findOffset S g ⟨r.stop.line + 1, 0⟩ with
      | some eo =>
        let gl ← subU eo g.gapStart
        return ({ g with gapLength := gl }, cost)
      | none =>
        let gl ← subU g.data.length g.gapStart
        return ({ g with gapLength := gl }, cost)

/-- One API call; the others write nothing. -/
def callC (g : GapBuffer) (cost : Nat) : Call → R (Obs × GapBuffer × Nat)
  | .insert s p => do return (.done, ← insertC S A g s p cost)
  | .delete p q => do return (.done, ← deleteC S g (Range.new p q) cost)
  | .read p q => do return (.opt (← read S g (Range.new p q)), g, cost)
  | .inBounds p => do return (.bool (← inBounds S g p), g, cost)
  | .toStr => do return (.text (← toStr g), g, cost)

/-- A sequence of API calls. -/
def runC (g : GapBuffer) (cost : Nat) : List Call → R (List Obs × GapBuffer × Nat)
  | [] => .ok ([], g, cost)
  | c :: cs => do
    let (o, g, cost) ← callC S A g cost c
    let (os, g, cost) ← runC g cost cs
    return (o :: os, g, cost)

end Scribe.GapBuffer
