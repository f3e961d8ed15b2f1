import Verif.Spec.Cursor
/-!
# Walking over a page

What the keys do to a cursor, in terms of nothing but the lengths of the lines.
-/
namespace Scribe.Spec
open Cursor (Move)

/-- The numbers of clusters of the lines, which newlines separate. -/
def lengths (segs : Text → List Text) (t : Text) : List Nat := (splitNl t).map fun l => (segs l).length

/-- Whether there is such a place. -/
def onPage (ls : List Nat) (p : Position) : Bool :=
  match ls[p.line]? with
  | some n => decide (p.offset ≤ n)
  | none => false

/-- To another line, if there is one: as close to the wanted column as possible; that is still wanted afterwards. -/
def toLine (ls : List Nat) (c : Cursor) (l : Nat) : Cursor :=
  match ls[l]? with
  | some n => ⟨⟨l, min c.sticky n⟩, c.sticky⟩
  | none => c

/-- At a column, which is wanted from now on. -/
def atColumn (l o : Nat) : Cursor := ⟨⟨l, o⟩, o⟩

/-- One key. An empty last line is no line for `move_to_end_of_line`, which does nothing there. -/
def walk1 (ls : List Nat) (c : Cursor) : Move → Cursor
  | .to p => if onPage ls p then atColumn p.line p.offset else c
  | .up => if c.position.line = 0 then c else toLine ls c (c.position.line - 1)
  | .down => toLine ls c (c.position.line + 1)
  | .left => if c.position.offset = 0 then c else atColumn c.position.line (c.position.offset - 1)
  | .right => if c.position.offset < ls.getD c.position.line 0 then atColumn c.position.line (c.position.offset + 1) else c
  | .startOfLine => atColumn c.position.line 0
  | .endOfLine =>
    if c.position.line + 1 = ls.length ∧ ls.getD c.position.line 0 = 0 then c else atColumn c.position.line (ls.getD c.position.line 0)
  | .firstLine => atColumn 0 (min c.sticky (ls.getD 0 0))
  | .lastLine => atColumn (ls.length - 1) (min c.sticky (ls.getD (ls.length - 1) 0))

/-- Keys one after the other. -/
def walk (ls : List Nat) (c : Cursor) (ms : List Move) : Cursor := ms.foldl (walk1 ls) c

/-- With the arrow keys to a place: up as often as it may take, down to its line, left as often as it may take, right to its column. -/
def route (ups lefts : Nat) (p : Position) : List Move :=
  List.replicate ups .up ++ List.replicate p.line .down ++ List.replicate lefts .left ++ List.replicate p.offset .right

end Scribe.Spec
