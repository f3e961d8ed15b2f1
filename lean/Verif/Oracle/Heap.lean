import Verif.Oracle.Basic
import Verif.Spec.Heap
/-! # Executable forms of C106 -/
namespace Scribe.Oracle
open Heap

variable (S : Segmenter) (A : Alloc)

/-- It goes well, and then `P`. -/
@[macro_inline] def fine {α : Type} (r : HR α) (P : α → Bool) : Bool :=
  match r with
  | .ok a => P a
  | .error _ => false

def o_C106_counts (cs : List Step) : Bool :=
  fine (Owners.none.steps S A cs) fun o => (List.range (o.store.length + 1)).all fun p =>
    decide (countAt o.store p = (holders o).count p) && decide ((gapAt o.store p).isSome ↔ p ∈ holders o)

def o_C106_no_leak (cs : List Step) : Bool :=
  fine (Owners.none.steps S A cs) fun o => fine (o.steps S A (dropEverything o)) fun o' =>
    decide (o'.buffers = []) && decide (o'.cursors = []) && decide (o'.refs = []) && o'.store.all (decide <| · = .freed)

def simpleB : Step → Bool
  | .new _ | .fromFile .. | .call .. | .dropBuffer _ => true
  | _ => false

def o_C106_one_each (cs : List Step) : Bool :=
  imp (∀ c ∈ cs, simpleB c) <| fine (Owners.none.steps S A cs) fun o => decide ((liveCells o.store).length = o.buffers.length) &&
    o.buffers.all fun b => decide (b.data ∈ liveCells o.store)

def isMoveB : Buf.Cmd → Bool
  | .move _ => true
  | _ => false

def o_C106_same (cs : List Step) (i : Nat) (c : Buf.Cmd) : Bool :=
  fine (Owners.none.steps S A cs) fun o => someImp o.buffers[i]? fun b => (isMoveB c && decide (b.cursor.data ≠ b.data)) ||
    fine (o.step S A (.call i c)) fun o' => someAnd o'.buffers[i]? fun b' => someAnd (plain o.store b) fun v => someAnd (plain o'.store b') fun v' =>
      decide (Buf.exec S A v c = .ok v') && decide (o'.cursors = o.cursors) && decide (o'.refs = o.refs) && decide (o'.buffers = o.buffers.set i b') &&
      imp (b.cursor.data = b.data) (decide (b'.cursor.data = b'.data)) &&
      (others o i).all fun q => decide (q = b.data) || decide (gapAt o'.store q = gapAt o.store q)

def o_C106_replace (cs : List Step) (i : Nat) (t : Text) : Bool :=
  fine (Owners.none.steps S A cs) fun o => someImp o.buffers[i]? fun b => someImp (plain o.store b) fun v => imp (v.data.toStr ≠ .ok t) <|
    fine (o.step S A (.call i (.replace t))) fun o' => someAnd o'.buffers[i]? fun b' =>
      decide (b'.data ∉ holders o) && decide (b'.cursor.data = b'.data) && decide (gapAt o'.store b.data = if b.data ∈ holders o' then some v.data else none)

def o_C106_made (cs : List Step) (c : Step) : Bool :=
  fine (Owners.none.steps S A cs) fun o => someImp (c.makes A) fun m => fine (o.step S A c) fun o' =>
    let bs := o'.buffers.drop o.buffers.length
    decide (o'.buffers.take o.buffers.length = o.buffers) && decide (o'.cursors = o.cursors) && decide (o'.refs = o.refs) && decide (bs.map (plain o'.store) = m.toList.map some) &&
      bs.all (fun b => decide (b.cursor.data = b.data) && decide (b.data ∉ holders o)) && (holders o).all fun q => decide (gapAt o'.store q = gapAt o.store q)

def o_C106_edit (cs : List Step) (k : Nat) (c : GapBuffer.Call) : Bool :=
  fine (Owners.none.steps S A cs) fun o => someImp o.refs[k]? fun q => fine (o.step S A (.edit k c)) fun o' => someAnd (gapAt o.store q) fun g =>
    match GapBuffer.call S A g c with
    | .error _ => false
    | .ok (_, g') => decide (o'.buffers = o.buffers) && decide (o'.cursors = o.cursors) && decide (o'.refs = o.refs) &&
      (List.range (o.store.length + 1)).all fun p => decide (gapAt o'.store p = if p = q then some g' else gapAt o.store p)

def o_C106_moved (cs : List Step) (j : Nat) (m : Cursor.Move) : Bool :=
  fine (Owners.none.steps S A cs) fun o => someImp o.cursors[j]? fun c => fine (o.step S A (.moveCursor j m)) fun o' => someAnd (gapAt o.store c.data) fun g =>
    match Cursor.move S g c.at_ m with
    | .error _ => false
    | .ok at' => decide (o'.cursors = o.cursors.set j ⟨c.data, at'⟩) && decide (o'.buffers = o.buffers) && decide (o'.refs = o.refs) && decide (o'.store = o.store)

end Scribe.Oracle
