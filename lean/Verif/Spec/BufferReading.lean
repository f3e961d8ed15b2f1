import Verif.Spec.Recipe
import Verif.Spec.Reading
import Verif.Model.BufferReading
/-!
# What the calls of a buffer read

In terms of the document of recipes (`Spec/Recipe.lean`): what each call looks up, and where the gap is then.
-/
namespace Scribe.Spec
open Buf (Cmd)
variable (segs : Text → List Text) (grant : Nat → Nat → Nat → Nat)

def nothing : Effort := ⟨0, 0⟩

namespace Zip

/-- All of the text. -/
def whole (z : Zip) : Effort := ⟨blen z.left + blen z.right, 0⟩

/-- Going to a line: the sticky column is looked up; if it is not there, the text is read to see how long the line is, and its end is looked up. -/
def overLine (z : Zip) (c : Cursor) (l : Nat) : Effort :=
  if z.has segs ⟨l, c.sticky⟩ then z.lookup segs ⟨l, c.sticky⟩
  else z.lookup segs ⟨l, c.sticky⟩ + z.whole + z.lookup segs ⟨l, z.lineStop segs l⟩

/-- The movements. -/
def moving (z : Zip) (c : Cursor) : Cursor.Move → Effort
  | .to p => z.lookup segs p
  | .up => if c.position.line = 0 then nothing else z.overLine segs c (c.position.line - 1)
  | .down => z.overLine segs c (c.position.line + 1)
  | .left => if c.position.offset = 0 then nothing else z.lookup segs ⟨c.position.line, c.position.offset - 1⟩
  | .right => z.lookup segs ⟨c.position.line, c.position.offset + 1⟩
  | .startOfLine => z.lookup segs ⟨c.position.line, 0⟩
  | .endOfLine =>
    if c.position.line < (strLines z.text).length then z.whole + z.lookup segs ⟨c.position.line, z.lineStop segs c.position.line⟩ else z.whole
  | .lastLine => z.whole + z.lookup segs ⟨(endPos (segs z.text)).line, min c.sticky (endPos (segs z.text)).offset⟩
  | .firstLine => z.whole + z.lookup segs ⟨0, min c.sticky (z.lineStop segs 0)⟩

end Zip

namespace ZDoc

/-- A new text: the cursor's position is looked up in it, and if it is not there the start of its line. -/
def swapping (d : ZDoc) (t : Text) : Effort :=
  let z := Zip.fresh grant d.zip.clock t
  let p := d.cursor.position
  if z.has segs p then z.lookup segs p else z.lookup segs p + z.lookup segs ⟨p.line, 0⟩

/-- Performing a recipe: what is cut out is read before. -/
def performing (d : ZDoc) : Recipe → Effort
  | .put s p => d.zip.effort segs grant (.insert s p)
  | .cut _ p q => d.zip.effort segs grant (.read p q) + d.zip.effort segs grant (.delete p q)
  | .swap _ new => d.swapping segs grant new

/-- Performing its opposite. -/
def reverting (d : ZDoc) : Recipe → Effort
  | .put s p => d.zip.effort segs grant (.delete p (putEnd segs s p))
  | .cut (some old) p _ => d.zip.effort segs grant (.insert old p)
  | .cut none _ _ => nothing
  | .swap old _ => d.swapping segs grant old

/-- One after the other. -/
def performingAll (d : ZDoc) : List Recipe → Effort
  | [] => nothing
  | r :: rs => d.performing segs grant r + performingAll (d.perform segs grant r) rs

def revertingAll (d : ZDoc) : List Recipe → Effort
  | [] => nothing
  | r :: rs => d.reverting segs grant r + revertingAll (d.revert segs grant r) rs

/-- Replacing reads the text to compare it, and once more to remember it. -/
def replacing (d : ZDoc) (t : Text) : Effort :=
  if t = d.zip.text then d.zip.whole else d.zip.whole + d.zip.whole + d.swapping segs grant t

/-- The step that undo takes back, if any. -/
def lastStep (d : ZDoc) : Option (List Recipe) :=
  match d.group with
  | some (r :: rs) => some (r :: rs)
  | _ => d.undo.head?

/-- What a call reads. -/
def effort (d : ZDoc) : Cmd → Effort
  | .insert s => d.performing segs grant (.put s d.cursor.position)
  | .delete => d.zip.lookup segs ⟨d.cursor.position.line, d.cursor.position.offset + 1⟩ + d.performing segs grant (d.cutNow segs d.cursor.position (d.deleteEnd segs))
  | .deleteRange p q => d.performing segs grant (d.cutNow segs p q)
  | .replace t => d.replacing segs grant t
  | .reload t => d.replacing segs grant t
  | .undo => (d.lastStep.map fun rs => d.revertingAll segs grant rs.reverse).getD nothing
  | .redo => (d.redo.head?.map fun rs => d.performingAll segs grant rs).getD nothing
  | .move m => d.zip.moving segs d.cursor m
  | _ => nothing

end ZDoc

/-- The bytes of the strings that a recipe remembers. -/
def Recipe.bytes : Recipe → Nat
  | .put s _ => blen s
  | .cut old _ _ => blen (old.getD [])
  | .swap old new => blen old + blen new

/-- How often the text may be read for a call that is no undo or redo. -/
def times : Cmd → Nat
  | .insert _ => 1
  | .delete => 7
  | .deleteRange .. => 6
  | .replace _ | .reload _ => 2
  | .move _ => 3
  | _ => 0

/-- The bytes of a new text. -/
def newBytes : Cmd → Nat
  | .replace t | .reload t => blen t
  | _ => 0

end Scribe.Spec
