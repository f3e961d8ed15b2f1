import Verif.Model.GapBuffer
/-!
# Specification of a text addressed by positions

A text buffer without any gap: a string, cut into clusters by `segs`. Everything is defined from
`locate`, the way to split the clusters of the text so that the first part ends at a position.
-/
namespace Scribe.Spec

/-- All ways to cut a list in two. -/
def splits (cs : List Text) : List (List Text × List Text) :=
  (List.range (cs.length + 1)).map fun n => (cs.take n, cs.drop n)

/-- The clusters before and after position `p`, if the position exists. -/
def locate (cs : List Text) (p : Position) : Option (List Text × List Text) :=
  (splits cs).find? fun ab => endPos ab.1 = p

variable (segs : Text → List Text)

/-- The position exists in the text. -/
def exists? (t : Text) (p : Position) : Bool := (locate (segs t) p).isSome

/-- Text after inserting `s` at `p`; unchanged if `p` does not exist. -/
def insertAt (t s : Text) (p : Position) : Text :=
  match locate (segs t) p with
  | none => t
  | some (a, b) => a.flatten ++ s ++ b.flatten

/-- The clusters from which text survives a deletion ending at `q`: those after `q`; if `q` does not exist,
those on the lines after `q`'s line; if there are none, nothing. -/
def afterEnd (cs : List Text) (q : Position) : List Text :=
  match locate cs q with
  | some (_, b) => b
  | none =>
    match locate cs ⟨q.line + 1, 0⟩ with
    | some (_, b) => b
    | none => []

/-- Text after deleting a range; unchanged if the start does not exist. -/
def deleteRange (t : Text) (p q : Position) : Text :=
  match locate (segs t) p with
  | none => t
  | some (a, _) => a.flatten ++ (afterEnd (segs t) q).flatten

/-- The text between two positions, if both exist. -/
def readRange (t : Text) (p q : Position) : Option Text :=
  match locate (segs t) p, locate (segs t) q with
  | some (a, _), some (a', _) => some (a'.drop a.length).flatten
  | _, _ => none

end Scribe.Spec

namespace Scribe.Spec
variable (segs : Text → List Text)

/-- Inserting `s` at `p` neither merges it with its neighbours nor splits a cluster. -/
def CleanInsert (t s : Text) (p : Position) : Prop :=
  ∀ a b, locate (segs t) p = some (a, b) → segs (a.flatten ++ s ++ b.flatten) = a ++ segs s ++ b

/-- Deleting the range does not merge the clusters at its two ends. -/
def CleanDelete (t : Text) (p q : Position) : Prop :=
  ∀ a b, locate (segs t) p = some (a, b) →
    segs (a.flatten ++ (afterEnd (segs t) q).flatten) = a ++ afterEnd (segs t) q

end Scribe.Spec

namespace Scribe.Spec
variable (segs : Text → List Text)
open GapBuffer (Call Obs)

/-- The smaller and the larger of two positions. -/
def lo (p q : Position) : Position := if p.line < q.line ∨ (p.line = q.line ∧ p.offset ≤ q.offset) then p else q
def hi (p q : Position) : Position := if p.line < q.line ∨ (p.line = q.line ∧ p.offset ≤ q.offset) then q else p

/-- A gap buffer API call on a plain text. -/
def callText (t : Text) : Call → Obs × Text
  | .insert s p => (.done, insertAt segs t s p)
  | .delete p q => (.done, deleteRange segs t (lo p q) (hi p q))
  | .read p q => (.opt (readRange segs t (lo p q) (hi p q)), t)
  | .inBounds p => (.bool (exists? segs t p), t)
  | .toStr => (.text t, t)

/-- A sequence of calls on a plain text. -/
def runText (t : Text) : List Call → List Obs × Text
  | [] => ([], t)
  | c :: cs =>
    let r := callText segs t c
    let rs := runText r.2 cs
    (r.1 :: rs.1, rs.2)

/-- The call does not fuse clusters. -/
def CleanCall (t : Text) : Call → Prop
  | .insert s p => CleanInsert segs t s p
  | .delete p q => CleanDelete segs t (lo p q) (hi p q)
  | _ => True

/-- No call of the sequence fuses clusters. -/
def CleanCalls : Text → List Call → Prop
  | _, [] => True
  | t, c :: cs => CleanCall segs t c ∧ CleanCalls (callText segs t c).2 cs

/-- The possible effects of a call on the text, without saying where. -/
def Effect (u u' : Text) : Call → Prop
  | .insert s _ => u' = u ∨ ∃ x y, u = x ++ y ∧ u' = x ++ s ++ y
  | .delete _ _ => ∃ x d y, u = x ++ d ++ y ∧ u' = x ++ y
  | _ => u' = u

/-- The strings inserted by a sequence of calls. -/
def inserted : List Call → List Text
  | [] => []
  | .insert s _ :: cs => s :: inserted cs
  | _ :: cs => inserted cs

/-- `p` advanced by text with clusters `cs`. -/
def advance (p : Position) (cs : List Text) : Position :=
  let e := endPos cs
  if e.line = 0 then ⟨p.line, p.offset + e.offset⟩ else ⟨p.line + e.line, e.offset⟩

end Scribe.Spec
