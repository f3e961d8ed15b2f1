import Verif.Oracle.Rest
import Verif.Spec.FindReplace
/-! # Executable forms of C86 -/
namespace Scribe.Oracle
open Spec Props Buf

variable (S : Segmenter) (A : Alloc) (T : Uax29.Table)

/-- Every cluster is ordinary and a single byte. -/
def byteB (t : Text) : Bool := overB S T t && decide (S.segs t = t.map fun c => [c]) && t.all fun c => decide (c.utf8Size = 1)

/-- What is asked of text, needle and replacement. -/
def findB (b : Buf) (needle r : Text) (f : Text → List Position → Bool) : Bool :=
  okImp b.data.toStr fun t => imp (byteB S T t = true ∧ byteB S T r = true) <| imp (needle ≠ [] ∧ '\n' ∉ needle ∧ '\r' ∉ needle) <|
    okImp (b.search needle) fun ps => f t ps

def o_C86_replace_one (b : Buf) (needle r : Text) : Bool :=
  findB S T b needle r fun t ps => ps.all fun p =>
    match locate (S.segs t) p with
    | none => false
    | some (x, y) => decide (needle <+: y.flatten) &&
      okAnd (execAll S A b (change needle.length r p)) fun b' => decide (b'.data.toStr = .ok (x.flatten ++ r ++ y.flatten.drop needle.length))

def o_C86_replace_all (b : Buf) (needle r : Text) : Bool :=
  findB S T b needle r fun t ps => okAnd (execAll S A b (changeAll needle.length r ps)) fun b' => decide (b'.data.toStr = .ok (substitute needle r 0 t))

def o_C86_undo (b : Buf) (needle r : Text) : Bool :=
  findB S T b needle r fun t ps => imp (b.group = none ∧ ps ≠ []) <|
    okAnd (execAll S A b (.startGroup :: changeAll needle.length r ps ++ [.endGroup])) fun b1 =>
      decide (b1.data.toStr = .ok (substitute needle r 0 t)) && decide (b1.history.previous.length = b.history.previous.length + 1) &&
      okAnd (exec S A b1 .undo) fun b2 => decide (b2.data.toStr = .ok t) &&
        okAnd (exec S A b2 .redo) fun b3 => decide (b3.data.toStr = .ok (substitute needle r 0 t))

/-- On a new buffer with the text `u ++ w ++ needle ++ y`. -/
def o_C86_elsewhere (k : Nat) (u w needle y r : Text) : Bool :=
  let t := u ++ w ++ (needle ++ y)
  let b := Buf.fromContent A k t
  imp (overB S T u = true ∧ overB S T w = true ∧ overB S T (needle ++ y) = true ∧ overB S T r = true) <| imp (needle ≠ [] ∧ '\n' ∉ needle ∧ '\r' ∉ needle) <|
    imp ((u = [] ∨ u.getLast? = some '\n') ∧ '\n' ∉ w ∧ ∃ c ∈ S.segs w, 1 < blen c) <| okAnd (b.search needle) fun ps =>
      ps.any fun p => decide ((endPos (S.segs (u ++ w))).line = p.line) && decide ((endPos (S.segs (u ++ w))).offset < p.offset) &&
        imp (exists? S.segs t p = true ∧ exists? S.segs t ⟨p.line, p.offset + needle.length⟩ = true) (okAnd (execAll S A b (change needle.length r p)) fun b' =>
          (List.range ((needle ++ y).length + 1)).any fun i => (List.range ((needle ++ y).length + 1)).any fun j =>
            decide (0 < i) && decide ((S.segs (((needle ++ y).drop i).take j)).length = needle.length) && decide (b'.data.toStr = .ok (u ++ w ++ (needle ++ y).take i ++ r ++ ((needle ++ y).drop i).drop j)))

end Scribe.Oracle
