import Verif.Spec.Text
import Verif.Model.Cursor
/-!
# Specification of cursor movements

What each movement does on a plain text: the new position and sticky column. `lineLen i` is the number of
clusters on line `i` (lines separated by newlines).
-/
namespace Scribe.Spec
variable (segs : Text → List Text)

/-- The number of clusters on line `i`, if the line exists. -/
def lineLen (t : Text) (i : Nat) : Option Nat := (splitNl t)[i]?.map fun l => (segs l).length

/-- Line after a vertical move: one up or down, unless there is no such line. -/
def vertical (t : Text) (line : Nat) : Cursor.Move → Nat
  | .up => line - 1
  | .down => if line + 1 < (splitNl t).length then line + 1 else line
  | _ => line

/-- Move to `p` if it exists. -/
def tryMove (t : Text) (c : Cursor) (p : Position) : Cursor := if exists? segs t p then ⟨p, p.offset⟩ else c

/-- Move to another line: to the sticky column, else to the end of the line as `str::lines` sees it, else stay. The
sticky column is kept. -/
def tryLine (t : Text) (c : Cursor) (l : Nat) : Cursor :=
  let stop := ((strLines t)[l]?.map fun x => (segs x).length).getD 0
  if exists? segs t ⟨l, c.sticky⟩ then ⟨⟨l, c.sticky⟩, c.sticky⟩
  else if exists? segs t ⟨l, stop⟩ then ⟨⟨l, stop⟩, c.sticky⟩
  else c

/-- Every movement on any plain text (for texts without CR, C27–C29 give simpler descriptions). -/
def moveCursor (t : Text) (c : Cursor) : Cursor.Move → Cursor
  | .to p => tryMove segs t c p
  | .up => if c.position.line = 0 then c else tryLine segs t c (c.position.line - 1)
  | .down => tryLine segs t c (c.position.line + 1)
  | .left => if c.position.offset = 0 then c else tryMove segs t c ⟨c.position.line, c.position.offset - 1⟩
  | .right => tryMove segs t c ⟨c.position.line, c.position.offset + 1⟩
  | .startOfLine => tryMove segs t c ⟨c.position.line, 0⟩
  | .endOfLine =>
    match (strLines t)[c.position.line]? with
    | some l => tryMove segs t c ⟨c.position.line, (segs l).length⟩
    | none => c
  | .lastLine =>
    let e := endPos (segs t)
    tryMove segs t c ⟨e.line, min c.sticky e.offset⟩
  | .firstLine => tryMove segs t c ⟨0, min c.sticky (((strLines t)[0]?.map fun x => (segs x).length).getD 0)⟩

end Scribe.Spec

namespace Scribe.Props
open Spec Cursor

/-- The vertical movements. -/
def Vertical (m : Move) : Prop := m = .up ∨ m = .down

end Scribe.Props
