import Verif.Model.GapBuffer
/-!
# The gap buffer over memory that may be uninitialised

`GapBuffer::new` and `GapBuffer::insert` call `Vec::set_len(capacity)` on spare capacity that nobody
has written (src/buffer/gap_buffer.rs:34-36 and 74-76). Here a byte of the vector is `some x` (written)
or `none` (never written), and looking at a `none` is a fault of its own (`Fault.uninit`): in Rust it
would be undefined behaviour. Functions follow src/buffer/gap_buffer.rs line by line, like
`Verif/Model/GapBuffer.lean`; only the memory differs.

(Reallocation copies the whole old vector, gap included, to the new place; that is an untyped copy
made by the allocator and is not a use of the bytes.)
-/
namespace Scribe.Uninit

/-- What can go wrong: a panic of the main model, or a use of a byte nobody wrote. -/
inductive Fault where
  | panic (p : Panic)
  | uninit
  deriving DecidableEq, Repr

/-- Result of code that may panic or use uninitialised memory. -/
abbrev U := Except Fault

/-- A panic of the runtime library. -/
def lift {α : Type} : R α → U α
  | .ok x => .ok x
  | .error p => .error (.panic p)

/-- A `Vec<u8>` up to its length; `none` is a byte nobody wrote. -/
abbrev Mem := List (Option UInt8)

/-- Using the value of one byte. -/
def use : Option UInt8 → U UInt8
  | some x => .ok x
  | none => .error .uninit

/-- Using the values of all bytes of a slice (`String::from_utf8_lossy` looks at each of them). -/
def useAll : Mem → U Bytes
  | [] => .ok []
  | b :: bs => do
    let x ← use b
    let xs ← useAll bs
    return x :: xs

/-- `String::from_utf8_lossy(&data[i..j])`. -/
def textOf (d : Mem) (i j : Nat) : U Text := do
  let s ← lift (slice d i j)
  return lossy (← useAll s)

/-- src/buffer/gap_buffer.rs:12-16 `struct GapBuffer` (`clock` is ghost, as in the main model). -/
structure Gap where
  data : Mem
  gapStart : Nat
  gapLength : Nat
  clock : Nat
  deriving DecidableEq, Repr

variable (S : Segmenter) (A : Alloc)

/-- src/buffer/gap_buffer.rs:29-43 `GapBuffer::new`: the spare bytes are not written. -/
def new (k : Nat) (t : Text) : Gap :=
  let bytes := enc t
  { data := bytes.map some ++ List.replicate (A.get k bytes.length 0).length none,
    gapStart := bytes.length, gapLength := (A.get k bytes.length 0).length, clock := k + 1 }

/-- src/buffer/gap_buffer.rs:207-257 `find_offset`. -/
def findOffset (g : Gap) (p : Position) : U (Option Nat) := do
  let first ← textOf g.data 0 g.gapStart
  match GapBuffer.scan p (S.segs first) 0 ⟨0, 0⟩ with
  | .inl off => return some off
  | .inr q =>
    if q.line = p.line ∧ q.offset = p.offset then return some (g.gapStart + g.gapLength)
    else
      let second ← textOf g.data (g.gapStart + g.gapLength) g.data.length
      match GapBuffer.scan p (S.segs second) 0 q with
      | .inl off => return some (g.gapStart + g.gapLength + off)
      | .inr q' =>
        if q'.line = p.line ∧ q'.offset = p.offset then return some g.data.length
        else return none

/-- The loop at src/buffer/gap_buffer.rs:269-272. -/
def shiftLeft (offset gapLength : Nat) : Nat → Mem → U Mem
  | 0, d => .ok d
  | n + 1, d => do
    let x ← use (← lift (getAt d (offset + n)))
    let d ← lift (setAt d (offset + n + gapLength) (some x))
    let d ← lift (setAt d (offset + n) (some 0))
    shiftLeft offset gapLength n d

/-- The loop at src/buffer/gap_buffer.rs:278-281. -/
def shiftRight (gapLength : Nat) : Nat → Nat → Mem → U Mem
  | 0, _, d => .ok d
  | n + 1, i, d => do
    let x ← use (← lift (getAt d i))
    let j ← lift (subU i gapLength)
    let d ← lift (setAt d j (some x))
    let d ← lift (setAt d i (some 0))
    shiftRight gapLength n (i + 1) d

/-- src/buffer/gap_buffer.rs:259-289 `move_gap`. -/
def moveGap (g : Gap) (offset : Nat) : U Gap :=
  if g.gapLength = 0 then .ok { g with gapStart := offset }
  else if offset < g.gapStart then do
    let d ← shiftLeft offset g.gapLength (g.gapStart - offset) g.data
    return { g with data := d, gapStart := offset }
  else if offset > g.gapStart then do
    let d ← shiftRight g.gapLength (offset - (g.gapStart + g.gapLength)) (g.gapStart + g.gapLength) g.data
    let gs ← lift (subU offset g.gapLength)
    return { g with data := d, gapStart := gs }
  else .ok g

/-- src/buffer/gap_buffer.rs:291-297 `write_to_gap`. -/
def writeToGap : Bytes → Gap → U Gap
  | [], g => .ok g
  | b :: bs, g => do
    let d ← lift (setAt g.data g.gapStart (some b))
    let gl ← lift (subU g.gapLength 1)
    writeToGap bs { g with data := d, gapStart := g.gapStart + 1, gapLength := gl }

/-- src/buffer/gap_buffer.rs:60-77, the reallocation at the start of `insert`. -/
def grow (g : Gap) (n : Nat) : U Gap := do
  if n > g.gapLength then
    let g ← moveGap g g.data.length
    let d := g.data ++ List.replicate (A.get g.clock g.data.length n).length none
    let gl ← lift (subU d.length g.gapStart)
    return { data := d, gapStart := g.gapStart, gapLength := gl, clock := g.clock + 1 }
  else return g

/-- src/buffer/gap_buffer.rs:58-86 `insert`. -/
def insert (g : Gap) (s : Text) (p : Position) : U Gap := do
  let g ← grow A g (blen s)
  match ← findOffset S g p with
  | none => return g
  | some offset =>
    let g ← moveGap g offset
    writeToGap (enc s) g

/-- src/buffer/gap_buffer.rs:104-134 `read`. -/
def read (g : Gap) (r : Range) : U (Option Text) := do
  match ← findOffset S g r.start with
  | none => return none
  | some so =>
    match ← findOffset S g r.stop with
    | none => return none
    | some eo =>
      if so < g.gapStart ∧ g.gapStart < eo then
        let first ← textOf g.data so g.gapStart
        let second ← textOf g.data (g.gapStart + g.gapLength) eo
        return some (first ++ second)
      else
        let t ← textOf g.data so eo
        return some t

/-- src/buffer/gap_buffer.rs:152-186 `delete`. -/
def delete (g : Gap) (r : Range) : U Gap := do
  match ← findOffset S g r.start with
  | none => return g
  | some so =>
    let g ← moveGap g so
    match ← findOffset S g r.stop with
    | some eo =>
      let gl ← lift (subU eo g.gapStart)
      return { g with gapLength := gl }
    | none =>
      match ← findOffset S g ⟨r.stop.line + 1, 0⟩ with
      | some eo =>
        let gl ← lift (subU eo g.gapStart)
        return { g with gapLength := gl }
      | none =>
        let gl ← lift (subU g.data.length g.gapStart)
        return { g with gapLength := gl }

/-- src/buffer/gap_buffer.rs:202-204 `in_bounds`. -/
def inBounds (g : Gap) (p : Position) : U Bool := do
  return (← findOffset S g p).isSome

/-- src/buffer/gap_buffer.rs:300-307 `Display` (`to_string`). -/
def toStr (g : Gap) : U Text := do
  let first ← textOf g.data 0 g.gapStart
  let second ← textOf g.data (g.gapStart + g.gapLength) g.data.length
  return first ++ second

/-- One API call. -/
def call (g : Gap) : GapBuffer.Call → U (GapBuffer.Obs × Gap)
  | .insert s p => do return (.done, ← insert S A g s p)
  | .delete p q => do return (.done, ← delete S g (Range.new p q))
  | .read p q => do return (.opt (← read S g (Range.new p q)), g)
  | .inBounds p => do return (.bool (← inBounds S g p), g)
  | .toStr => do return (.text (← toStr g), g)

/-- A sequence of API calls. -/
def run (g : Gap) : List GapBuffer.Call → U (List GapBuffer.Obs × Gap)
  | [] => .ok ([], g)
  | c :: cs => do
    let (o, g) ← call S A g c
    let (os, g) ← run g cs
    return (o :: os, g)

end Scribe.Uninit
