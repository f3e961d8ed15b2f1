import Verif.Spec.Ordinary
/-!
# Text with CRLF line ends

Ordinary clusters together with CRLF. What is typed or pasted has no CRLF; what is loaded may.
-/
namespace Scribe.Spec
open Buf (Cmd)
variable (segs : Text → List Text) (P : Text → Prop)

/-- A cluster of `P`, or CRLF. -/
def OrCrlf (c : Text) : Prop := P c ∨ c = ['\r', '\n']

/-- Clusters of `P` and CRLF put side by side stay as they are; CRLF itself is not in `P`. -/
structure CrlfClosed : Prop where
  apart : ∀ cs : List Text, (∀ c ∈ cs, OrCrlf P c) → segs cs.flatten = cs
  noCrlf : ¬ P ['\r', '\n']

/-- Calls on a file with CRLF line ends: inserted strings are over `P` (no CRLF), whole contents may have CRLF; a range to delete
has an existing end (or no existing start); no redo while a group with edits is open. -/
def WindowsCmd (d : Doc) : Cmd → Prop
  | .insert s => Over segs P s
  | .replace c => Over segs (OrCrlf P) c
  | .reload c => Over segs (OrCrlf P) c
  | .deleteRange p q => exists? segs d.text (hi p q) = true ∨ exists? segs d.text (lo p q) = false
  | .redo => d.redo = [] ∨ d.group = none ∨ d.group = some []
  | _ => True

def WindowsCmds (d : Doc) : List Cmd → Prop
  | [] => True
  | c :: cs => WindowsCmd segs P d c ∧ WindowsCmds (d.step segs c) cs

/-- Calls that are such whatever the state of the buffer. -/
def WindowsTyping : Cmd → Prop
  | .insert s => Over segs P s
  | .replace c => Over segs (OrCrlf P) c
  | .reload c => Over segs (OrCrlf P) c
  | .deleteRange _ _ => False
  | .startGroup => False
  | _ => True

/-- Every CR is directly followed by LF. -/
def CrPaired (t : Text) : Prop := ∀ x y, t = x ++ '\r' :: y → y.head? = some '\n'

/-- Where the cursor is (on line 0) after a movement in a text all of whose line breaks are CRLF: `first` clusters before the first break, `all` in the text; from
column `o`, remembering column `sticky`. -/
def crlfColumn (first all o sticky : Nat) : Cursor.Move → Nat
  | .to p => if p.line = 0 ∧ p.offset ≤ all then p.offset else o
  | .up | .down => o
  | .left => o - 1
  | .right => min (o + 1) all
  | .startOfLine => 0
  | .endOfLine => first
  | .firstLine => min sticky first
  | .lastLine => min sticky all

end Scribe.Spec
