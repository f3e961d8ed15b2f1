import Verif.Model.Unwind
/-! # Words for C90 -/
namespace Scribe.Unwind
open Scribe.Buf (Cmd)

/-- Calls that edit. -/
def Edits : Cmd → Prop
  | .insert _ | .delete | .deleteRange _ _ | .replace _ | .reload _ => True
  | _ => False

/-- The step that `undo` takes back: the open group, if anything is in it, or the last one of the history. -/
def undone (b : Buf) : Option Op :=
  match b.group with
  | some (op :: ops) => some (.group (op :: ops))
  | _ => b.history.previous.head?

/-- The history after that. -/
def undoneHistory (b : Buf) : History :=
  match b.group with
  | some (_ :: _) => b.history
  | _ => b.history.back.2

end Scribe.Unwind
