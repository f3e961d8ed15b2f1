import Verif.Oracle.Exact
import Verif.Spec.Reading
/-! # Executable forms of C108 -/
namespace Scribe.Oracle
open Spec GapBuffer

variable (S : Segmenter)

def o_C108_same (A : Alloc) (k : Nat) (t : Text) (cs : List Call) : Bool :=
  okAnd (run S A (new A k t) cs) fun (os, g) => okAnd (runR S A (new A k t) ⟨0, 0⟩ cs) fun (os', g', _) => decide (os' = os) && decide (g' = g)

def o_C108_exact (A : Alloc) (k : Nat) (t : Text) (cs : List Call) (c : Call) : Bool :=
  let z := (Zip.run S.segs A.grant ⟨t, [], blen t + A.grant k (blen t) 0, k + 1⟩ cs).2
  okAnd (run S A (new A k t) cs) fun (_, g) => okAnd (call S A g c) fun (o, g1) => okAnd (callR S A g ⟨3, 5⟩ c) fun (o', g2, w) =>
    decide (o' = o) && decide (g2 = g1) && decide (w = (⟨3, 5⟩ : Effort) + z.effort S.segs A.grant c)

def o_C108_call (A : Alloc) (k : Nat) (t : Text) (cs : List Call) (c : Call) : Bool :=
  okImp (run S A (new A k t) cs) fun (_, g) => okImp g.toStr fun u => okAnd (callR S A g ⟨0, 0⟩ c) fun (_, _, e) =>
    decide (e.decoded ≤ 3 * blen u) && decide (e.visited ≤ 3 * blen u) &&
      match c with
      | .insert _ _ => decide (e.decoded ≤ blen u) && decide (e.visited ≤ blen u)
      | .inBounds _ => decide (e.decoded ≤ blen u) && decide (e.visited ≤ blen u)
      | _ => true

def o_C108_append (A : Alloc) (k : Nat) (t : Text) (ss : List Text) : Bool :=
  okAnd (runR S A (new A k t) ⟨0, 0⟩ (appending S.segs t ss)) fun (_, g, w) =>
    decide (w = readAgain S.segs t ss) && okAnd g.toStr fun u => decide (u = t ++ ss.flatten)

def o_C108_quadratic (A : Alloc) (k : Nat) (t : Text) (ss : List Text) : Bool :=
  !(ss.all fun s => !s.isEmpty) || okAnd (runR S A (new A k t) ⟨0, 0⟩ (appending S.segs t ss)) fun (_, _, w) =>
    decide (2 * ss.length * blen t + ss.length * (ss.length - 1) ≤ 2 * w.decoded)

end Scribe.Oracle
