import Verif.Spec.Calls
/-!
# Marks: positions kept up to date by arithmetic alone

What a program that remembers positions (bookmarks, selections, diagnostics) has to do to them after an edit.
-/
namespace Scribe.Spec
open Buf (Cmd)

/-- `m` after an insertion at `p` of a text that by itself ends at `e`. -/
def afterInsert (p e m : Position) : Position :=
  if m.line < p.line ∨ (m.line = p.line ∧ m.offset < p.offset) then m
  else if m.line = p.line then ⟨m.line + e.line, if e.line = 0 then m.offset + e.offset else m.offset - p.offset + e.offset⟩
  else ⟨m.line + e.line, m.offset⟩

/-- `m` after the deletion of what is between `p` and `q`. -/
def afterDelete (p q m : Position) : Position :=
  if m.line < p.line ∨ (m.line = p.line ∧ m.offset < p.offset) then m
  else if m.line < q.line ∨ (m.line = q.line ∧ m.offset < q.offset) then p
  else if m.line = q.line then ⟨p.line, p.offset + (m.offset - q.offset)⟩
  else ⟨m.line - (q.line - p.line), m.offset⟩

/-- The position after a cluster at `m`. -/
def following (m : Position) (c : Text) : Position := if c = ['\n'] then ⟨m.line + 1, 0⟩ else ⟨m.line, m.offset + 1⟩

variable (segs : Text → List Text)

/-- A mark after a deletion in text `t`; `none` if what is at the mark is deleted. -/
def markDelete (t : Text) (p q m : Position) : Option Position :=
  if exists? segs t p && exists? segs t q then
    if (p.line < m.line ∨ (p.line = m.line ∧ p.offset ≤ m.offset)) ∧ (m.line < q.line ∨ (m.line = q.line ∧ m.offset < q.offset)) then none
    else some (afterDelete p q m)
  else some m

/-- A mark after a call on a buffer with text `t` and its cursor at `p`; the mark is given up if the text at it is deleted, and on
calls that are not edits of one place. -/
def markStep (t : Text) (p m : Position) : Cmd → Option Position
  | .insert s => if exists? segs t p then some (afterInsert p (endPos (segs s)) m) else some m
  | .delete => markDelete segs t p (Doc.deleteEnd segs t p) m
  | .deleteRange x y => markDelete segs t (lo x y) (hi x y) m
  | .undo | .redo | .replace _ | .reload _ => none
  | _ => some m

/-- A mark after a sequence of calls. -/
def markSteps (d : Doc) (m : Position) : List Cmd → Option Position
  | [] => some m
  | c :: cs => (markStep segs d.text d.cursor.position m c).bind fun m' => markSteps (d.step segs c) m' cs

end Scribe.Spec
