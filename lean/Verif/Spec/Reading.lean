import Verif.Spec.Cost
import Verif.Model.Reading
/-! # What is read to find a place -/
namespace Scribe.Spec
open GapBuffer (Call)
variable (segs : Text → List Text) (grant : Nat → Nat → Nat → Nat)

/-- Looking up a place: the left part is decoded, and its clusters are looked at up to the one that begins there; for a place to the right of the gap, or one that does not exist,
all of the left part and the same with the right part. -/
def Zip.lookup (z : Zip) (p : Position) : Effort :=
  match locate (z.clusters segs) p with
  | some (a, _) =>
    if a.length ≤ (segs z.left).length then ⟨blen z.left, min (a.length + 1) (segs z.left).length⟩
    else ⟨blen z.left + blen z.right, min (a.length + 1) (z.clusters segs).length⟩
  | none => ⟨blen z.left + blen z.right, (z.clusters segs).length⟩

/-- What a call reads. -/
def Zip.effort (z : Zip) : Call → Effort
  | .insert s p => (z.reserve grant (blen s)).lookup segs p
  | .delete p q =>
    match locate (z.clusters segs) (lo p q) with
    | none => z.lookup segs (lo p q)
    | some (a, b) =>
      let z' := { z with left := a.flatten, right := b.flatten }
      match locate (z'.clusters segs) (hi p q) with
      | some _ => z.lookup segs (lo p q) + z'.lookup segs (hi p q)
      | none => z.lookup segs (lo p q) + z'.lookup segs (hi p q) + z'.lookup segs ⟨(hi p q).line + 1, 0⟩
  | .read p q =>
    match locate (z.clusters segs) (lo p q), locate (z.clusters segs) (hi p q) with
    | none, _ => z.lookup segs (lo p q)
    | some _, none => z.lookup segs (lo p q) + z.lookup segs (hi p q)
    | some (a, _), some (a', _) => z.lookup segs (lo p q) + z.lookup segs (hi p q) + ⟨blen (a'.drop a.length).flatten, 0⟩
  | .inBounds p => z.lookup segs p
  | .toStr => ⟨blen z.left + blen z.right, 0⟩

/-- Strings appended to a text, one by one. -/
def appending : Text → List Text → List Call
  | _, [] => []
  | t, s :: ss => .insert s (endPos (segs t)) :: appending (t ++ s) ss

/-- All of the text, each time. -/
def readAgain : Text → List Text → Effort
  | _, [] => ⟨0, 0⟩
  | t, s :: ss => ⟨blen t, (segs t).length⟩ + readAgain (t ++ s) ss

end Scribe.Spec
