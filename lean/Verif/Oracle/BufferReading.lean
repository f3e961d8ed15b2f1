import Verif.Oracle.Exact
import Verif.Spec.BufferReading
/-! # Executable forms of C111 -/
namespace Scribe.Oracle
open Spec Buf

variable (S : Segmenter) (A : Alloc)

/-- The document of recipes after the calls. -/
def recipesAfter (k : Nat) (t : Option Text) (cs : List Cmd) : ZDoc := (ZDoc.new A.grant k (t.getD []) t.isSome).steps S.segs A.grant cs

/-- Both counters. -/
def within (e : Effort) (n : Nat) : Bool := decide (e.decoded ≤ n) && decide (e.visited ≤ n)

def o_C111_exact (k : Nat) (t : Option Text) (cs : List Cmd) (c : Cmd) : Bool :=
  okAnd (execAll S A (begin' A k t) cs) fun b => okAnd (exec S A b c) fun b' => okAnd (execR S A b ⟨3, 5⟩ c) fun (b2, w) =>
    decide (b2 = b') && decide (w = (⟨3, 5⟩ : Effort) + (recipesAfter S A k t cs).effort S.segs A.grant c)

def o_C111_call (k : Nat) (t : Option Text) (cs : List Cmd) (c : Cmd) : Bool :=
  decide (c = .undo) || decide (c = .redo) || okImp (execAll S A (begin' A k t) cs) fun b => okImp b.data.toStr fun u =>
    okAnd (execR S A b ⟨0, 0⟩ c) fun (_, e) => within e (times c * blen u + 2 * newBytes c)

def o_C111_steps (k : Nat) (t : Option Text) (cs : List Cmd) : Bool :=
  okImp (execAll S A (begin' A k t) cs) fun b => okImp b.data.toStr fun u =>
    (someImp (recipesAfter S A k t cs).lastStep fun rs => okAnd (execR S A b ⟨0, 0⟩ .undo) fun (_, e) =>
      within e (3 * rs.length * (blen u + (rs.map Recipe.bytes).sum))) &&
    (someImp (recipesAfter S A k t cs).redo.head? fun rs => okAnd (execR S A b ⟨0, 0⟩ .redo) fun (_, e) =>
      within e (6 * rs.length * (blen u + (rs.map Recipe.bytes).sum)))

def o_C111_end (k : Nat) (t : Option Text) (cs : List Cmd) (s : Text) : Bool :=
  okImp (execAll S A (begin' A k t) cs) fun b => okImp b.data.toStr fun u =>
    imp (decide (b.cursor.position = endPos ((recipesAfter S A k t cs).zip.clusters S.segs)))
      (okAnd (execR S A b ⟨0, 0⟩ (.insert s)) (fun (_, e) => decide (e.decoded = blen u)) &&
       okAnd (execR S A b ⟨0, 0⟩ (.move .right)) (fun (_, e) => decide (e.decoded = blen u)))

end Scribe.Oracle
