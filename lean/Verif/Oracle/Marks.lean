import Verif.Oracle.Rest
import Verif.Spec.Marks
/-! # Executable forms of C95 -/
namespace Scribe.Oracle
open Spec Props Buf

variable (S : Segmenter) (A : Alloc)

def o_C95_join (b : Buf) (p q r : Position) : Bool :=
  imp (AtOrBefore p q ∧ AtOrBefore q r) <|
    okImp (b.data.read S (Range.new p q)) fun u => okImp (b.data.read S (Range.new q r)) fun v =>
      match u, v with
      | some u, some v => decide (b.data.read S (Range.new p r) = .ok (some (u ++ v)))
      | _, _ => true

def o_C95_insert (b : Buf) (d : Doc) (s : Text) (q r : Position) : Bool :=
  imp (CleanCmd S.segs d (.insert s)) <| okImp (exec S A b (.insert s)) fun b' =>
    let p := b.cursor.position
    imp (b.data.inBounds S p = .ok true) <|
    let f := afterInsert p (endPos (S.segs s))
    decide (b'.data.inBounds S (f q) = b.data.inBounds S q) &&
      imp (AtOrBefore q r ∧ AtOrBefore r p) (decide (b'.data.read S (Range.new q r) = b.data.read S (Range.new q r))) &&
      imp (AtOrBefore p q ∧ AtOrBefore q r) (decide (b'.data.read S (Range.new (f q) (f r)) = b.data.read S (Range.new q r))) &&
      decide (b'.data.read S (Range.new p (f p)) = .ok (some s))

def o_C95_delete (b : Buf) (d : Doc) (p q r r' : Position) : Bool :=
  imp (AtOrBefore p q) <| imp (CleanCmd S.segs d (.deleteRange p q)) <| okImp (exec S A b (.deleteRange p q)) fun b' =>
    imp (b.data.inBounds S p = .ok true ∧ b.data.inBounds S q = .ok true) <|
    let f := afterDelete p q
    imp (AtOrBefore r p ∨ AtOrBefore q r) (decide (b'.data.inBounds S (f r) = b.data.inBounds S r)) &&
      imp (AtOrBefore r r' ∧ AtOrBefore r' p) (decide (b'.data.read S (Range.new r r') = b.data.read S (Range.new r r'))) &&
      imp (AtOrBefore q r ∧ AtOrBefore r r') (decide (b'.data.read S (Range.new (f r) (f r')) = b.data.read S (Range.new r r')))

def o_C95_session (b : Buf) (d : Doc) (cs : List Cmd) (m : Position) (c : Text) : Bool :=
  imp (CleanCmds S.segs d cs) <| okImp (execAll S A b cs) fun b' =>
    imp (b.data.read S (Range.new m (following m c)) = .ok (some c) ∧ c ≠ []) <|
      match markSteps S.segs d m cs with
      | some m' => decide (b'.data.read S (Range.new m' (following m' c)) = .ok (some c))
      | none => true

end Scribe.Oracle
