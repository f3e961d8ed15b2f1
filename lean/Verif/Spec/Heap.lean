import Verif.Model.Heap
/-! Words for C106: who holds what. -/
namespace Scribe.Heap

/-- The pointers that a buffer holds: its own, that of its cursor, and those that its callback has captured. -/
def own (b : HBuf) : List Ref := b.data :: b.cursor.data :: b.callback.getD []

/-- All pointers that a program holds, as often as it holds them. -/
def holders (o : Owners) : List Ref := o.buffers.flatMap own ++ (o.cursors.map (·.data) ++ o.refs)

/-- What everybody but buffer `i` holds. -/
def others (o : Owners) (i : Nat) : List Ref := (o.buffers.eraseIdx i).flatMap own ++ (o.cursors.map (·.data) ++ o.refs)

/-- The gap buffer of a cell that is not freed. -/
def gapAt (h : Store) (p : Ref) : Option GapBuffer :=
  match h[p]? with
  | some (.live _ g) => some g
  | _ => none

/-- The count of a cell. -/
def countAt (h : Store) (p : Ref) : Nat :=
  match h[p]? with
  | some (.live n _) => n
  | _ => 0

/-- The cells that are not freed. -/
def liveCells (h : Store) : List Ref := (List.range h.length).filter fun p => (gapAt h p).isSome

/-- A buffer without its pointers, as in `Model/Buffer.lean`. -/
def plain (h : Store) (b : HBuf) : Option Buf :=
  (gapAt h b.data).map fun g => ⟨g, b.cursor.at_, b.history, b.group, b.callback.isSome, b.log⟩

/-- Steps that clone nothing: buffers are made, used and dropped. -/
def Step.Simple : Step → Prop
  | .new _ | .fromFile .. | .call .. | .dropBuffer _ => True
  | _ => False

/-- The buffer, without pointers, that a step should make: an empty one, or that of the file, if its path can be canonicalised. -/
def Step.makes (A : Alloc) : Step → Option (Option Buf)
  | .new k => some (some (Buf.new A k))
  | .fromFile k t canonical => some (if canonical then some (Buf.fromContent A k t) else none)
  | _ => none

/-- Everything is dropped. -/
def dropEverything (o : Owners) : List Step :=
  List.replicate o.buffers.length (.dropBuffer 0) ++ (List.replicate o.cursors.length (.dropCursor 0) ++ List.replicate o.refs.length (.dropRef 0))

end Scribe.Heap
