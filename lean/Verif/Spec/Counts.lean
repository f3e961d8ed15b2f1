import Verif.Model.Buffer
/-!
# Bookkeeping of undo, redo, groups and the saved mark

Four numbers, no text.
-/
namespace Scribe.Spec
open Buf (Cmd)

structure Counts where
  /-- steps that can be undone, and redone -/
  undo : Nat
  redo : Nat
  /-- the number of undoable steps at the last save, if that state is still reachable -/
  mark : Option Nat
  /-- edits in the open group, if one is open -/
  group : Option Nat
  deriving DecidableEq, Repr

namespace Counts

/-- One more undoable step: nothing to redo; a saved state that was ahead is lost. -/
def push (n : Counts) : Counts :=
  { n with undo := n.undo + 1, redo := 0, mark := n.mark.filter fun m => decide (m ≤ n.undo) }

def edit (n : Counts) : Counts :=
  match n.group with
  | some k => { n with group := some (k + 1) }
  | none => n.push

/-- One call; `same` says whether a replacement is by the current contents. -/
def step (same : Bool) (n : Counts) : Cmd → Counts
  | .insert _ | .delete | .deleteRange _ _ => n.edit
  | .replace _ => if same then n else n.edit
  | .reload _ =>
    let n := if same then n else n.edit
    { n with mark := some n.undo }
  | .undo =>
    if n.group.getD 0 ≠ 0 then { n with group := none }
    else if n.undo = 0 then { n with group := none }
    else { n with group := none, undo := n.undo - 1, redo := n.redo + 1 }
  | .redo => if n.redo = 0 then n else { n with undo := n.undo + 1, redo := n.redo - 1 }
  | .startGroup => { n with group := some (n.group.getD 0) }
  | .endGroup => if n.group.getD 0 = 0 then { n with group := none } else { n with group := none }.push
  | .saved => { n with mark := some n.undo }
  | .move _ | .setCursor _ | .setCallback _ => n

/-- Nothing has happened since the last save. -/
def unmodified (n : Counts) : Bool := n.mark == some n.undo

end Counts
end Scribe.Spec
