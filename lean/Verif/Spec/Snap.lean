import Verif.Spec.Doc
/-!
# Linear snapshot history

The simplest meaning of undo and redo: the texts of the past, the present text, and the texts of the future. No edit
operations are remembered.
-/
namespace Scribe.Spec
open Buf (Cmd)

structure Snap where
  /-- earlier texts, latest first -/
  past : List Text
  present : Text
  /-- undone texts, next first -/
  future : List Text
  /-- `none`: no group is open; `some none`: a group without edits is open; `some (some t)`: a group with edits is open,
  started at text `t` -/
  group : Option (Option Text)
  deriving DecidableEq, Repr

namespace Snap

def new (t : Text) : Snap := ⟨[], t, [], none⟩

/-- An edit makes a new present. Outside a group it forgets the future. -/
def edit (s : Snap) (t : Text) : Snap :=
  match s.group with
  | none => ⟨s.present :: s.past, t, [], none⟩
  | some none => { s with present := t, group := some (some s.present) }
  | some (some _) => { s with present := t }

/-- Undo goes one text back, or to the start of a group that has edits. -/
def undo (s : Snap) : Snap :=
  match s.group with
  | some (some t) => { s with present := t, group := none }
  | _ =>
    match s.past with
    | t :: ts => ⟨ts, t, s.present :: s.future, none⟩
    | [] => { s with group := none }

/-- Redo goes one text forward. -/
def redo (s : Snap) : Snap :=
  match s.future with
  | t :: ts => { s with past := s.present :: s.past, present := t, future := ts }
  | [] => s

def startGroup (s : Snap) : Snap := { s with group := some (s.group.getD none) }

/-- Ending a group that has edits makes it one step. -/
def endGroup (s : Snap) : Snap :=
  match s.group with
  | some (some t) => ⟨t :: s.past, s.present, [], none⟩
  | _ => { s with group := none }

variable (segs : Text → List Text)

/-- What an API call means for the snapshots. Only the texts resulting from new edits are taken from outside: the plain text
specification of the edit applied to the present text (and to the cursor position `p`). -/
def step (p : Position) (s : Snap) : Cmd → Snap
  | .insert x => s.edit (insertAt segs s.present x p)
  | .delete => s.edit (deleteRange segs s.present p (Doc.deleteEnd segs s.present p))
  | .deleteRange q r => s.edit (deleteRange segs s.present (lo q r) (hi q r))
  | .replace c => if c = s.present then s else s.edit c
  | .reload c => if c = s.present then s else s.edit c
  | .undo => s.undo
  | .redo => s.redo
  | .startGroup => s.startGroup
  | .endGroup => s.endGroup
  | .move _ | .setCursor _ | .setCallback _ | .saved => s

/-- The present text before the open group, if any. -/
def base (s : Snap) : Text :=
  match s.group with
  | some (some t) => t
  | _ => s.present

end Snap
end Scribe.Spec
