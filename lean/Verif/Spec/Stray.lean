import Verif.Spec.Walk
/-!
# Moving a cursor that may be off the page

Edits do not move the cursor (C69) and its position can be assigned, so it can be at a line or column that does not exist. What the keys do to any cursor, in terms of the
lengths of the lines.
-/
namespace Scribe.Spec
open Cursor (Move)

/-- To a place, if there is one. -/
def goTo (ls : List Nat) (c : Cursor) (p : Position) : Cursor := if onPage ls p then atColumn p.line p.offset else c

/-- One key, from anywhere. -/
def stray1 (ls : List Nat) (c : Cursor) : Move → Cursor
  | .to p => goTo ls c p
  | .up => if c.position.line = 0 then c else toLine ls c (c.position.line - 1)
  | .down => toLine ls c (c.position.line + 1)
  | .left => if c.position.offset = 0 then c else goTo ls c ⟨c.position.line, c.position.offset - 1⟩
  | .right => goTo ls c ⟨c.position.line, c.position.offset + 1⟩
  | .startOfLine => goTo ls c ⟨c.position.line, 0⟩
  | .endOfLine =>
    if c.position.line + 1 = ls.length ∧ ls.getD c.position.line 0 = 0 then c else goTo ls c ⟨c.position.line, ls.getD c.position.line 0⟩
  | .firstLine => atColumn 0 (min c.sticky (ls.getD 0 0))
  | .lastLine => atColumn (ls.length - 1) (min c.sticky (ls.getD (ls.length - 1) 0))

/-- Keys one after the other. -/
def stray (ls : List Nat) (c : Cursor) (ms : List Move) : Cursor := ms.foldl (stray1 ls) c

/-- The keys that bring a cursor back that is at `p`, where there is nothing. -/
def rescues (ls : List Nat) (p : Position) : Move → Bool
  | .to q => onPage ls q
  | .up => decide (0 < p.line ∧ p.line ≤ ls.length)
  | .down => decide (p.line + 1 < ls.length)
  | .left => decide (ls[p.line]?.map (· + 1) = some p.offset)
  | .right => false
  | .startOfLine => decide (p.line < ls.length)
  | .endOfLine => decide (p.line < ls.length ∧ ¬ (p.line + 1 = ls.length ∧ ls[p.line]? = some 0))
  | .firstLine => true
  | .lastLine => true

/-- The keys that depend on where the cursor is. -/
def Relative : Move → Prop
  | .up | .down | .left | .right | .startOfLine | .endOfLine => True
  | _ => False

instance (m : Move) : Decidable (Relative m) := by cases m <;> unfold Relative <;> infer_instance

/-- The arrow keys. -/
def Arrow : Move → Prop
  | .up | .down | .left | .right => True
  | _ => False

instance (m : Move) : Decidable (Arrow m) := by cases m <;> unfold Arrow <;> infer_instance

end Scribe.Spec
