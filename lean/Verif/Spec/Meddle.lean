import Verif.Model.Shared
/-! # A change callback that edits -/
namespace Scribe.Shared

/-- A callback that inserts a text into cell 0 at the reported position, when there is such a cell. -/
def meddle (S : Segmenter) (A : Alloc) (s : Text) : Callback Unit := fun p w =>
  if 0 < w.cells.length then withWrite w 0 fun g w => do return (← g.insert S A s p, w) else .ok w

end Scribe.Shared
