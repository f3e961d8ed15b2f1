import Verif.Model.Segmenter
/-!
# The gap buffer

Models src/buffer/gap_buffer.rs byte by byte. `Vec<u8>` is a list of bytes; since the code always
calls `set_len(capacity)`, the length and the capacity coincide, and the list includes the spare
capacity. What the allocator puts into spare capacity is a parameter (`Alloc`); the field `clock` is ghost
state counting allocations so that different allocations may behave differently. Allocation failure
(abort) is not modelled.
-/
namespace Scribe

/-- The allocator: for the `k`-th allocation, a block of `size` bytes and a request of `n` additional bytes, the spare bytes
`Vec` ends up with (`Vec::reserve`: at least `n`, with unspecified contents). -/
structure Alloc where
  get : Nat → Nat → Nat → Bytes
  enough : ∀ k size n, n ≤ (get k size n).length

/-- src/buffer/gap_buffer.rs:12-16 `struct GapBuffer` (`clock` is ghost). -/
structure GapBuffer where
  data : Bytes
  gapStart : Nat
  gapLength : Nat
  clock : Nat
  deriving DecidableEq, Repr

namespace GapBuffer
variable (S : Segmenter) (A : Alloc)

/-- src/buffer/gap_buffer.rs:29-43 `GapBuffer::new`; `k` is the allocation counter. -/
def new (k : Nat) (t : Text) : GapBuffer :=
  let bytes := enc t
  let slack := A.get k bytes.length 0
  { data := bytes ++ slack, gapStart := bytes.length, gapLength := slack.length, clock := k + 1 }

/-- The loops of `find_offset` (src/buffer/gap_buffer.rs:212-225 and 235-248): `Sum.inl` is the byte
offset at which the position was found, `Sum.inr` the line and offset counters after the loop. -/
def scan (p : Position) : List Text → Nat → Position → Sum Nat Position
  | [], _, q => .inr q
  | g :: gs, off, q =>
    if q.line = p.line ∧ q.offset = p.offset then .inl off
    else if g = ['\n'] then scan p gs (off + blen g) ⟨q.line + 1, 0⟩
    else scan p gs (off + blen g) ⟨q.line, q.offset + 1⟩

/-- src/buffer/gap_buffer.rs:207-257 `find_offset`. -/
def findOffset (g : GapBuffer) (p : Position) : R (Option Nat) := do
  let first ← slice g.data 0 g.gapStart
  match scan p (S.segs (lossy first)) 0 ⟨0, 0⟩ with
  | .inl off => return some off
  | .inr q =>
    if q.line = p.line ∧ q.offset = p.offset then return some (g.gapStart + g.gapLength)
    else
      let second ← slice g.data (g.gapStart + g.gapLength) g.data.length
      match scan p (S.segs (lossy second)) 0 q with
      | .inl off => return some (g.gapStart + g.gapLength + off)
      | .inr q' =>
        if q'.line = p.line ∧ q'.offset = p.offset then return some g.data.length
        else return none

/-- The loop at src/buffer/gap_buffer.rs:269-272: `n` iterations, from index `offset + n - 1` down to
`offset`. -/
def shiftLeft (offset gapLength : Nat) : Nat → Bytes → R Bytes
  | 0, d => .ok d
  | n + 1, d => do
    let x ← getAt d (offset + n)
    let d ← setAt d (offset + n + gapLength) x
    let d ← setAt d (offset + n) 0
    shiftLeft offset gapLength n d

/-- The loop at src/buffer/gap_buffer.rs:278-281: `n` iterations, from index `i` up. -/
def shiftRight (gapLength : Nat) : Nat → Nat → Bytes → R Bytes
  | 0, _, d => .ok d
  | n + 1, i, d => do
    let x ← getAt d i
    let j ← subU i gapLength
    let d ← setAt d j x
    let d ← setAt d i 0
    shiftRight gapLength n (i + 1) d

/-- src/buffer/gap_buffer.rs:259-289 `move_gap`. -/
def moveGap (g : GapBuffer) (offset : Nat) : R GapBuffer :=
  if g.gapLength = 0 then .ok { g with gapStart := offset }
  else if offset < g.gapStart then do
    let d ← shiftLeft offset g.gapLength (g.gapStart - offset) g.data
    return { g with data := d, gapStart := offset }
  else if offset > g.gapStart then do
    let d ← shiftRight g.gapLength (offset - (g.gapStart + g.gapLength)) (g.gapStart + g.gapLength) g.data
    let gs ← subU offset g.gapLength
    return { g with data := d, gapStart := gs }
  else .ok g

/-- src/buffer/gap_buffer.rs:291-297 `write_to_gap`. -/
def writeToGap : Bytes → GapBuffer → R GapBuffer
  | [], g => .ok g
  | b :: bs, g => do
    let d ← setAt g.data g.gapStart b
    let gl ← subU g.gapLength 1
    writeToGap bs { g with data := d, gapStart := g.gapStart + 1, gapLength := gl }

/-- src/buffer/gap_buffer.rs:60-77, the reallocation at the start of `insert`. -/
def grow (g : GapBuffer) (n : Nat) : R GapBuffer := do
  if n > g.gapLength then
    let g ← moveGap g g.data.length
    let d := g.data ++ A.get g.clock g.data.length n
    let gl ← subU d.length g.gapStart
    return { data := d, gapStart := g.gapStart, gapLength := gl, clock := g.clock + 1 }
  else return g

/-- src/buffer/gap_buffer.rs:58-86 `insert`. -/
def insert (g : GapBuffer) (s : Text) (p : Position) : R GapBuffer := do
  let g ← grow A g (blen s)
  match ← findOffset S g p with
  | none => return g
  | some offset =>
    let g ← moveGap g offset
    writeToGap (enc s) g

/-- src/buffer/gap_buffer.rs:104-134 `read`. -/
def read (g : GapBuffer) (r : Range) : R (Option Text) := do
  match ← findOffset S g r.start with
  | none => return none
  | some so =>
    match ← findOffset S g r.stop with
    | none => return none
    | some eo =>
      if so < g.gapStart ∧ g.gapStart < eo then
        let first ← slice g.data so g.gapStart
        let second ← slice g.data (g.gapStart + g.gapLength) eo
        return some (lossy first ++ lossy second)
      else
        let d ← slice g.data so eo
        return some (lossy d)

/-- src/buffer/gap_buffer.rs:152-186 `delete`. -/
def delete (g : GapBuffer) (r : Range) : R GapBuffer := do
  match ← findOffset S g r.start with
  | none => return g
  | some so =>
    let g ← moveGap g so
    match ← findOffset S g r.stop with
    | some eo =>
      let gl ← subU eo g.gapStart
      return { g with gapLength := gl }
    | none =>
      match ← findOffset S g ⟨r.stop.line + 1, 0⟩ with
      | some eo =>
        let gl ← subU eo g.gapStart
        return { g with gapLength := gl }
      | none =>
        let gl ← subU g.data.length g.gapStart
        return { g with gapLength := gl }

/-- src/buffer/gap_buffer.rs:202-204 `in_bounds`. -/
def inBounds (g : GapBuffer) (p : Position) : R Bool := do
  return (← findOffset S g p).isSome

/-- src/buffer/gap_buffer.rs:300-307 `Display` (`to_string`). -/
def toStr (g : GapBuffer) : R Text := do
  let first ← slice g.data 0 g.gapStart
  let second ← slice g.data (g.gapStart + g.gapLength) g.data.length
  return lossy first ++ lossy second

/-- A call of the public API of the gap buffer. Ranges are built with `Range::new`, the only
constructor (the fields of `Range` are private). -/
inductive Call where
  | insert (s : Text) (p : Position)
  | delete (p q : Position)
  | read (p q : Position)
  | inBounds (p : Position)
  | toStr
  deriving DecidableEq, Repr

/-- What the caller sees. -/
inductive Obs where
  | done
  | text (t : Text)
  | opt (o : Option Text)
  | bool (b : Bool)
  deriving DecidableEq, Repr

/-- One API call. -/
def call (g : GapBuffer) : Call → R (Obs × GapBuffer)
  | .insert s p => do return (.done, ← insert S A g s p)
  | .delete p q => do return (.done, ← delete S g (Range.new p q))
  | .read p q => do return (.opt (← read S g (Range.new p q)), g)
  | .inBounds p => do return (.bool (← inBounds S g p), g)
  | .toStr => do return (.text (← toStr g), g)

/-- A sequence of API calls. -/
def run (g : GapBuffer) : List Call → R (List Obs × GapBuffer)
  | [] => .ok ([], g)
  | c :: cs => do
    let (o, g) ← call S A g c
    let (os, g) ← run g cs
    return (o :: os, g)

end GapBuffer
end Scribe
