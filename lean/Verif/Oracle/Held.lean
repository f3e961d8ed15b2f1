import Verif.Oracle.Rest
import Verif.Spec.Held
/-! # Executable forms of C105 -/
namespace Scribe.Oracle
open Spec Buf

variable (S : Segmenter) (A : Alloc)

/-- For a new buffer (`none`) and for one with contents. -/
def heldStart (k : Nat) : Option Text → Buf
  | some t => Buf.fromContent A k t
  | none => Buf.new A k

def o_C105_ledger (k : Nat) (t : Option Text) (cs : List Cmd) : Bool :=
  okAnd (execAll S A (heldStart A k t) cs) fun b => okAnd (ledger S A (heldStart A k t) cs) fun (x, y) => decide (held b + y = x)

def editing : Cmd → Bool
  | .insert _ | .delete | .deleteRange _ _ | .replace _ | .reload _ => true
  | _ => false

def o_C105_still (k : Nat) (t : Text) (cs : List Cmd) (c : Cmd) : Bool :=
  okAnd (execAll S A (Buf.fromContent A k t) cs) fun b => okAnd (exec S A b c) fun b' =>
    editing c || (decide (held b' ≤ held b) &&
      imp ((c = .undo → b.group.getD [] = []) ∧ (c = .endGroup → b.history.next = [] ∨ b.group.getD [] = [])) (decide (held b' = held b)))

def o_C105_without_undo (k : Nat) (t : Text) (cs : List Cmd) : Bool :=
  imp (∀ c ∈ cs, c ≠ .undo) <| okAnd (execAll S A (Buf.fromContent A k t) cs) fun b => okAnd (ledger S A (Buf.fromContent A k t) cs) fun (x, y) =>
    decide (y = 0) && decide (held b = x)

def o_C105_reload (k : Nat) (t c : Text) (cs : List Cmd) : Bool :=
  imp (∀ c ∈ cs, c ≠ .undo) <| okAnd (execAll S A (Buf.fromContent A k t) cs) fun b => okAnd b.data.toStr fun u => imp (c ≠ u) <|
    okAnd (exec S A b (.reload c)) fun b' => decide (held b' = held b + blen u + blen c)

def o_C105_deleted (k : Nat) (t : Text) (p q : Position) : Bool :=
  let b := Buf.fromContent A k t
  imp (exists? S.segs t p = true) <| imp (exists? S.segs t q = true) <| okAnd (exec S A b (.deleteRange p q)) fun b' => okAnd b'.data.toStr fun t' =>
    decide (blen t' + adds S b (.deleteRange p q) = blen t)

end Scribe.Oracle
