import Verif.Model.Office
import Verif.Spec.Desktop
/-!
# What several programs on one disk see

Each its own documents, and the same files.
-/
namespace Scribe.Spec
variable {σ : Type}

/-- The documents of each program, and the files. -/
structure Offices (σ : Type) where
  docs : Nat → Studio σ
  disk : Disk

namespace Offices
variable (segs : Text → List Text) (grant : Nat → Nat → Nat → Nat) (s : Nat → Syntaxes σ)

/-- One event: what a program does changes its documents and the files, what others do only the files. -/
def step (o : Offices σ) : Event σ → Offices σ
  | .deed who W a =>
    let d := Desktop.step segs grant (s who) W ⟨o.docs who, o.disk⟩ a
    ⟨fun i => if i = who then d.docs else o.docs i, d.disk⟩
  | .outside disk => { o with disk := disk }

/-- Some events. -/
def steps (o : Offices σ) (es : List (Event σ)) : Offices σ := es.foldl (step segs grant s) o

end Offices

/-- What one program does. -/
def deedsOf (who : Nat) (es : List (Event σ)) : List (FileTree × Deed σ) :=
  es.filterMap fun
    | .deed i W a => if i = who then some (W, a) else none
    | .outside _ => none

/-- ReadsFiles at files: opens a path or reloads. -/
def ReadsFiles : Deed σ → Prop
  | .openPath _ _ _ | .reload _ => True
  | _ => False

end Scribe.Spec
