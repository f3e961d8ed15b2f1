import Verif.Spec.Block
/-!
# Replacing lines by other lines

Moving, sorting, doubling, joining and reformatting lines are all of this kind.
-/
namespace Scribe.Spec
open Buf (Cmd)

/-- Takes out everything from the start of line `i` to column `n` of line `j` and puts `s` there. -/
def spliceCalls (i j n : Nat) (s : Text) : List Cmd := [.deleteRange ⟨i, 0⟩ ⟨j, n⟩, .move (.to ⟨i, 0⟩), .insert s]

/-- The lines `i` to `j` replaced by others. -/
def spliced (ls : List Text) (i j : Nat) (new : List Text) : List Text := ls.take i ++ new ++ ls.drop (j + 1)

end Scribe.Spec
