import Verif.Model.GapBuffer
/-!
# The gap buffer with a counter of what is read

Looking up a position decodes the text before the gap (`String::from_utf8_lossy`), goes over its clusters one by one, and if need be does the same with the text
after the gap. The functions of `Verif/Model/GapBuffer.lean` with two counters: bytes given to `from_utf8_lossy`, and iterations of the loops of `find_offset`.
What is written is counted in `Verif/Model/Cost.lean`.
-/
namespace Scribe

/-- Bytes decoded, and clusters looked at. -/
structure Effort where
  decoded : Nat
  visited : Nat
  deriving DecidableEq, Repr

instance : Add Effort := ⟨fun a b => ⟨a.decoded + b.decoded, a.visited + b.visited⟩⟩

namespace GapBuffer
variable (S : Segmenter) (A : Alloc)

/-- The loops of `find_offset` (src/buffer/gap_buffer.rs:212-225 and 235-248); `n` counts the iterations. -/
def scanR (p : Position) : List Text → Nat → Position → Nat → Sum Nat Position × Nat
  | [], _, q, n => (.inr q, n)
  | g :: gs, off, q, n =>
    if q.line = p.line ∧ q.offset = p.offset then (.inl off, n + 1)
    else if g = ['\n'] then scanR p gs (off + blen g) ⟨q.line + 1, 0⟩ (n + 1)
    else scanR p gs (off + blen g) ⟨q.line, q.offset + 1⟩ (n + 1)

/-- src/buffer/gap_buffer.rs:207-257 `find_offset`. -/
def findOffsetR (g : GapBuffer) (p : Position) (w : Effort) : R (Option Nat × Effort) := do
  let first ← slice g.data 0 g.gapStart
  match scanR p (S.segs (lossy first)) 0 ⟨0, 0⟩ 0 with
  | (.inl off, n) => return (some off, w + ⟨first.length, n⟩)
  | (.inr q, n) =>
    if q.line = p.line ∧ q.offset = p.offset then return (some (g.gapStart + g.gapLength), w + ⟨first.length, n⟩)
    else
      let second ← slice g.data (g.gapStart + g.gapLength) g.data.length
      match scanR p (S.segs (lossy second)) 0 q 0 with
      | (.inl off, m) => return (some (g.gapStart + g.gapLength + off), w + ⟨first.length + second.length, n + m⟩)
      | (.inr q', m) =>
        if q'.line = p.line ∧ q'.offset = p.offset then return (some g.data.length, w + ⟨first.length + second.length, n + m⟩)
        else return (none, w + ⟨first.length + second.length, n + m⟩)

/-- src/buffer/gap_buffer.rs:58-86 `insert`. -/
def insertR (g : GapBuffer) (s : Text) (p : Position) (w : Effort) : R (GapBuffer × Effort) := do
  let g ← grow A g (blen s)
  match ← findOffsetR S g p w with
  | (none, w) => return (g, w)
  | (some offset, w) =>
    let g ← moveGap g offset
    return (← writeToGap (enc s) g, w)

/-- src/buffer/gap_buffer.rs:104-134 `read`. -/
def readR (g : GapBuffer) (r : Range) (w : Effort) : R (Option Text × Effort) := do
  match ← findOffsetR S g r.start w with
  | (none, w) => return (none, w)
  | (some so, w) =>
    match ← findOffsetR S g r.stop w with
    | (none, w) => return (none, w)
    | (some eo, w) =>
      if so < g.gapStart ∧ g.gapStart < eo then
        let first ← slice g.data so g.gapStart
        let second ← slice g.data (g.gapStart + g.gapLength) eo
        return (some (lossy first ++ lossy second), w + ⟨first.length + second.length, 0⟩)
      else
        let d ← slice g.data so eo
        return (some (lossy d), w + ⟨d.length, 0⟩)

/-- src/buffer/gap_buffer.rs:152-186 `delete`. -/
def deleteR (g : GapBuffer) (r : Range) (w : Effort) : R (GapBuffer × Effort) := do
  match ← findOffsetR S g r.start w with
  | (none, w) => return (g, w)
  | (some so, w) =>
    let g ← moveGap g so
    match ← findOffsetR S g r.stop w with
    | (some eo, w) =>
      let gl ← subU eo g.gapStart
      return ({ g with gapLength := gl }, w)
    | (none, w) =>
      match ← findOffsetR S g ⟨r.stop.line + 1, 0⟩ w with
      | (some eo, w) =>
        let gl ← subU eo g.gapStart
        return ({ g with gapLength := gl }, w)
      | (none, w) =>
        let gl ← subU g.data.length g.gapStart
        return ({ g with gapLength := gl }, w)

/-- src/buffer/gap_buffer.rs:202-204 `in_bounds`. -/
def inBoundsR (g : GapBuffer) (p : Position) (w : Effort) : R (Bool × Effort) := do
  let (o, w) ← findOffsetR S g p w
  return (o.isSome, w)

/-- src/buffer/gap_buffer.rs:300-307 `Display` (`to_string`). -/
def toStrR (g : GapBuffer) (w : Effort) : R (Text × Effort) := do
  let first ← slice g.data 0 g.gapStart
  let second ← slice g.data (g.gapStart + g.gapLength) g.data.length
  return (lossy first ++ lossy second, w + ⟨first.length + second.length, 0⟩)

/-- One API call. -/
def callR (g : GapBuffer) (w : Effort) : Call → R (Obs × GapBuffer × Effort)
  | .insert s p => do return (.done, ← insertR S A g s p w)
  | .delete p q => do return (.done, ← deleteR S g (Range.new p q) w)
  | .read p q => do
    let (t, w) ← readR S g (Range.new p q) w
    return (.opt t, g, w)
  | .inBounds p => do
    let (b, w) ← inBoundsR S g p w
    return (.bool b, g, w)
  | .toStr => do
    let (t, w) ← toStrR g w
    return (.text t, g, w)

/-- A sequence of API calls. -/
def runR (g : GapBuffer) (w : Effort) : List Call → R (List Obs × GapBuffer × Effort)
  | [] => .ok ([], g, w)
  | c :: cs => do
    let (o, g, w) ← callR S A g w c
    let (os, g, w) ← runR g w cs
    return (o :: os, g, w)

end GapBuffer
end Scribe
