import Verif.Model.Editor
/-!
# Several programs on one disk

Programs as in `Verif/Model/Editor.lean`, each with its own workspace, using the same files, and others that change files in any way. The calls of one
program are not interrupted by the others.
-/
namespace Scribe

/-- The workspaces of the programs, by a number, and the disk. -/
structure Office (σ : Type) where
  ws : Nat → Workspace σ
  disk : Disk

/-- What happens: a program does something (with the directories as they are then), or the files are changed by someone else. -/
inductive Event (σ : Type) where
  | deed (who : Nat) (W : FileTree) (a : Deed σ)
  | outside (disk : Disk)

namespace Office
variable {σ : Type} (S : Segmenter) (A : Alloc)

/-- One event. -/
def step (o : Office σ) : Event σ → R (Office σ)
  | .deed who W a => do
    let e ← Editor.step S A W ⟨o.ws who, o.disk⟩ a
    return ⟨fun i => if i = who then e.ws else o.ws i, e.disk⟩
  | .outside disk => .ok { o with disk := disk }

/-- Some events. -/
def steps (o : Office σ) : List (Event σ) → R (Office σ)
  | [] => .ok o
  | a :: as => do steps (← step S A o a) as

end Office
end Scribe
