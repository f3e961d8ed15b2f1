import Verif.Oracle.Exact
import Verif.Model.Cost
import Verif.Spec.Cost
/-! # Executable forms of C80 and C81 -/
namespace Scribe.Oracle
open Spec GapBuffer

variable (S : Segmenter)

/-- The least bound on text and inserted bytes. -/
def peak (A : Alloc) (g : GapBuffer) (cs : List Call) : Nat :=
  ((List.range cs.length).map fun i =>
    match run S A g (cs.take i) with
    | .ok (_, g) => (match g.toStr with | .ok u => blen u | .error _ => 0) + demand (cs[i]?.getD .toStr)
    | .error _ => 0).foldl max 0

def o_C80_memory (k : Nat) (t : Text) (cs : List Call) : Bool :=
  let M := peak S vec (new vec k t) cs
  okImp (run S vec (new vec k t) cs) fun (_, g) =>
    (decide (g.clock = (new vec k t).clock) && decide (g.data.length = (new vec k t).data.length)) ||
      let r := g.clock - (new vec k t).clock
      decide (1 ≤ r) && decide (g.clock = (new vec k t).clock + r) && decide (g.data.length ≤ max 8 (2 * M)) &&
        decide (2 ^ (r + 2) ≤ g.data.length) && decide (2 ^ r * (new vec k t).data.length ≤ g.data.length)

def o_C81_counter (A : Alloc) (k : Nat) (t : Text) (cs : List Call) : Bool :=
  okAnd (run S A (new A k t) cs) fun (os, g) => okAnd (runC S A (new A k t) 0 cs) fun (os', g', _) => decide (os' = os) && decide (g' = g)

def o_C81_call (A : Alloc) (k : Nat) (t : Text) (cs : List Call) (c : Call) : Bool :=
  okImp (run S A (new A k t) cs) fun (_, g) => okImp g.toStr fun u => okAnd (callC S A g 0 c) fun (_, _, n) =>
    decide (n ≤ (if blen u + demand c ≤ g.data.length then blen u else 3 * g.data.length) + demand c)

def o_C81_exact (A : Alloc) (k : Nat) (t : Text) (cs : List Call) (c : Call) : Bool :=
  let z := (Zip.run S.segs A.grant ⟨t, [], blen t + A.grant k (blen t) 0, k + 1⟩ cs).2
  okImp (run S A (new A k t) cs) fun (_, g) => okAnd (callC S A g 0 c) fun (_, _, n) => decide (n = z.cost S.segs A.grant c)

def o_C81_typing (k : Nat) (t : Text) (cs : List Call) (ss : List Text) : Bool :=
  let z := (Zip.run S.segs vec.grant ⟨t, [], blen t + vec.grant k (blen t) 0, k + 1⟩ cs).2
  okImp (run S vec (new vec k t) cs) fun (_, g) => okImp g.toStr fun u =>
    okAnd (runC S vec g 0 (typing S.segs vec.grant z ss)) fun (_, g', n) =>
      decide (g.data.length ≤ g'.data.length) && decide (n ≤ blen ss.flatten + 3 * (g'.data.length - g.data.length)) &&
      decide (n ≤ blen ss.flatten + 3 * max 8 (2 * (blen u + blen ss.flatten)))

end Scribe.Oracle
