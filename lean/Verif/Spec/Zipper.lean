import Verif.Spec.Text
/-!
# What a gap buffer does with any text

Two texts, before and after the gap, each cut into clusters on its own. No bytes, no offsets: the size of the
memory block is only a number, used to decide when a string does not fit. `grant k size n` is the number of bytes
that the `k`-th reservation, one of `n` bytes, adds to a block of `size` bytes.
-/
namespace Scribe

/-- How many bytes the allocator gives. -/
def Alloc.grant (A : Alloc) (k size n : Nat) : Nat := (A.get k size n).length

end Scribe

namespace Scribe.Spec
open GapBuffer (Call Obs)

/-- The text before and after the gap, the size of the block and the number of reservations made. -/
structure Zip where
  left : Text
  right : Text
  size : Nat
  clock : Nat
  deriving DecidableEq, Repr

namespace Zip
variable (segs : Text → List Text) (grant : Nat → Nat → Nat → Nat)

/-- The bytes left for insertions. -/
def room (z : Zip) : Nat := z.size - (blen z.left + blen z.right)

/-- The clusters that positions count. -/
def clusters (z : Zip) : List Text := segs z.left ++ segs z.right

/-- A string that does not fit is preceded by a reservation, with the gap at the end of the text. -/
def reserve (z : Zip) (n : Nat) : Zip :=
  if n ≤ z.room then z else ⟨z.left ++ z.right, [], z.size + grant z.clock z.size n, z.clock + 1⟩

/-- One call. -/
def call (z : Zip) : Call → Obs × Zip
  | .insert s p =>
    let z := z.reserve grant (blen s)
    match locate (z.clusters segs) p with
    | none => (.done, z)
    | some (a, b) => (.done, { z with left := a.flatten ++ s, right := b.flatten })
  | .delete p q =>
    match locate (z.clusters segs) (lo p q) with
    | none => (.done, z)
    | some (a, b) =>
      let z := { z with left := a.flatten, right := b.flatten }
      (.done, { z with right := (afterEnd (z.clusters segs) (hi p q)).flatten })
  | .read p q =>
    match locate (z.clusters segs) (lo p q), locate (z.clusters segs) (hi p q) with
    | some (a, _), some (a', _) => (.opt (some (a'.drop a.length).flatten), z)
    | _, _ => (.opt none, z)
  | .inBounds p => (.bool (locate (z.clusters segs) p).isSome, z)
  | .toStr => (.text (z.left ++ z.right), z)

/-- A sequence of calls. -/
def run (z : Zip) : List Call → List Obs × Zip
  | [] => ([], z)
  | c :: cs =>
    let r := z.call segs grant c
    let rs := run r.2 cs
    (r.1 :: rs.1, rs.2)

end Zip
end Scribe.Spec
