import Verif.Model.MachineRest
/-! # Counting the buffers a program adds -/
namespace Scribe.Machine
variable {σ : Type}

/-- How many buffers a call may add. -/
def adds : Workspace.Call σ → Nat
  | .add _ | .openPath .. => 1
  | _ => 0

/-- Open a buffer and close it again, `n` times. -/
def churn (b : FileBuf σ) (n : Nat) : List (Workspace.Call σ) := (List.replicate n [.add b, .close]).flatten

end Scribe.Machine
