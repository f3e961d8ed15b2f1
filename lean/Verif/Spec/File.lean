import Verif.Model.File
/-! # Vocabulary for saving and loading -/
namespace Scribe.Props

/-- The disk at the end of a list of steps. -/
def final (disk : Disk) (steps : List Disk) : Disk := steps.getLast?.getD disk

/-- The number of bytes a `write` call says it wrote. -/
def _root_.Scribe.WriteRes.bytes : WriteRes → Nat
  | .wrote n => n
  | _ => 0

/-- The call did not fail (and wrote something, unless it was interrupted). -/
def _root_.Scribe.WriteRes.Good : WriteRes → Prop
  | .wrote n => 0 < n
  | .interrupted => True
  | .failed => False

instance (r : WriteRes) : Decidable r.Good := by cases r <;> simp only [WriteRes.Good] <;> infer_instance

end Scribe.Props
