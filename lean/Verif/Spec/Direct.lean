import Verif.Spec.Shared
/-!
# Programs that use the public fields of buffers and cursors

`Buffer::cursor` and `Buffer::change_callback` are public (src/buffer/mod.rs:47-56), and so are `Cursor::data` and `Cursor::position`
(src/buffer/cursor.rs:12-16). A program can put any cursor into any buffer, and can edit any gap buffer it has a pointer to without the buffers'
knowledge.
-/
namespace Scribe.Shared
variable {ξ : Type}

/-- One step of such a program. Buffers are named by number, gap buffers by pointer; a step naming one that does not exist (which cannot be written in
Rust) does nothing. -/
inductive Act (ξ : Type) where
  /-- `Buffer::from_file` of a file with these contents. -/
  | load (k : Nat) (t : Text)
  /-- `Buffer::new()`. -/
  | blank (k : Nat)
  /-- `Rc::new(RefCell::new(GapBuffer::new(t)))`. -/
  | gap (k : Nat) (t : Text)
  /-- A call on the `i`-th buffer; `f` is the callback if the call sets one. -/
  | call (i : Nat) (f : Callback ξ) (c : Scribe.Buf.Cmd)
  /-- `buffer_i.cursor = c`, for any cursor: one made by `Cursor::new`, or a clone of one, of this buffer or another. -/
  | assign (i : Nat) (c : Cur)
  /-- `pointer.borrow_mut().insert(s, &at)`. -/
  | insert (p : Ptr) (s : Text) (q : Position)
  /-- `pointer.borrow_mut().delete(&Range::new(q, r))`. -/
  | delete (p : Ptr) (q r : Position)

/-- The step leaves the `i`-th buffer alone (though not necessarily the gap buffer it points to). -/
def Act.Spares (i : Nat) : Act ξ → Prop
  | .call j _ _ => j ≠ i
  | _ => True

/-- Callbacks set by the step behave. -/
def Act.Behaves : Act ξ → Prop
  | .call _ f _ => Shared.Behaves f
  | _ => True

/-- One step. -/
def act (S : Segmenter) (A : Alloc) (w : World ξ) (bs : List (Buf ξ)) : Act ξ → R (List (Buf ξ) × World ξ)
  | .load k t => .ok (bs ++ [(Buf.fromContent A w k t).1], (Buf.fromContent A w k t).2)
  | .blank k => .ok (bs ++ [(Buf.new A w k).1], (Buf.new A w k).2)
  | .gap k t => .ok (bs, (w.alloc (GapBuffer.new A k t)).2)
  | .call i f c =>
    match bs[i]? with
    | none => .ok (bs, w)
    | some b => do
      let (b, w) ← Buf.exec S A f w b c
      .ok (bs.set i b, w)
  | .assign i c =>
    match bs[i]? with
    | none => .ok (bs, w)
    | some b => .ok (if c.data < w.cells.length then bs.set i { b with cursor := c } else bs, w)
  | .insert p s q =>
    if p < w.cells.length then do
      let w ← withWrite w p fun g w => do return (← g.insert S A s q, w)
      .ok (bs, w)
    else .ok (bs, w)
  | .delete p q r =>
    if p < w.cells.length then do
      let w ← withWrite w p fun g w => do return (← g.delete S (Range.new q r), w)
      .ok (bs, w)
    else .ok (bs, w)

/-- A program. -/
def acts (S : Segmenter) (A : Alloc) (w : World ξ) (bs : List (Buf ξ)) : List (Act ξ) → R (List (Buf ξ) × World ξ)
  | [] => .ok (bs, w)
  | x :: xs => do
    let (bs, w) ← act S A w bs x
    acts S A w bs xs

/-- The buffer by value: its own gap buffer, its cursor's position, its history. -/
def Buf.byValue (b : Buf ξ) (g : GapBuffer) : Scribe.Buf := ⟨g, b.cursor.at_, b.history, b.group, b.callback.isSome, []⟩

end Scribe.Shared
