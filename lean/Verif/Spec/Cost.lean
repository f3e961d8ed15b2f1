import Verif.Spec.Zipper
/-! # Memory and work -/
namespace Scribe.Spec
open GapBuffer (Call Obs)

/-- What `Vec<u8>::reserve` does with a full block: the new size is the largest of twice the old one, what is needed, and 8
(`RawVec::grow_amortized`). -/
def Doubling (A : Alloc) : Prop :=
  ∀ k size n, 0 < n → size + (A.get k size n).length = max (max (2 * size) (size + n)) 8

/-- The allocator of `Vec`, with bytes nobody wrote. -/
def vec : Alloc where
  get _ size n := List.replicate (if n = 0 then 0 else max (max size n) (8 - size)) 0xff
  enough k size n := by rw [List.length_replicate]; split <;> omega

/-- The bytes that a call inserts. -/
def demand : Call → Nat
  | .insert s _ => blen s
  | _ => 0

/-- Inserting strings, each where the one before ended. -/
def typing (segs : Text → List Text) (grant : Nat → Nat → Nat → Nat) (z : Zip) : List Text → List Call
  | [] => []
  | s :: ss =>
    let c := Call.insert s (endPos (segs z.left))
    c :: typing segs grant (z.call segs grant c).2 ss

/-- The bytes between two places. -/
def apart (x y : Nat) : Nat := (x - y) + (y - x)

/-- The bytes copied when the gap moves to after `a`: those in between, or none if the gap is empty. -/
def Zip.travel (z : Zip) (a : Text) : Nat := if z.room = 0 then 0 else apart (blen z.left) (blen a)

/-- The bytes that a call copies: a block that is replaced, after the gap has moved to its end; the way of the gap; the inserted bytes. -/
def Zip.cost (segs : Text → List Text) (grant : Nat → Nat → Nat → Nat) (z : Zip) : Call → Nat
  | .insert s p =>
    (if blen s ≤ z.room then 0 else z.travel (z.left ++ z.right) + z.size) +
      match locate ((z.reserve grant (blen s)).clusters segs) p with
      | none => 0
      | some (a, _) => (z.reserve grant (blen s)).travel a.flatten + blen s
  | .delete p q =>
    match locate (z.clusters segs) (lo p q) with
    | none => 0
    | some (a, _) => z.travel a.flatten
  | _ => 0

end Scribe.Spec
