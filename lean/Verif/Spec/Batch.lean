import Verif.Spec.Ordinary
import Verif.Model.Buffer
/-!
# Several edits at once

What an editor does with a list of edits made for one text (by a formatter, a language server, an indent command, a refactoring), and with cut and paste.
-/
namespace Scribe.Spec
open Buf (Cmd)

/-- One of the edits: `keep` is left as it is, `old` after it is replaced by `new`. -/
structure Piece where
  keep : Text
  old : Text
  new : Text
deriving DecidableEq, Repr

/-- The text the edits are for; `rest` comes after the last one. -/
def source (ps : List Piece) (rest : Text) : Text := ps.flatMap (fun p => p.keep ++ p.old) ++ rest

/-- The text with all of them made. -/
def target (ps : List Piece) (rest : Text) : Text := ps.flatMap (fun p => p.keep ++ p.new) ++ rest

/-- Replace what is between the places after `x` and after `x ++ old`. -/
def swap (segs : Text → List Text) (x old new : Text) : List Cmd :=
  [.deleteRange (endPos (segs x)) (endPos (segs (x ++ old))), .move (.to (endPos (segs x))), .insert new]

/-- The edits from the last to the first, with the positions they have in the text they are for; `x` comes before them. -/
def backward (segs : Text → List Text) : Text → List Piece → List Cmd
  | _, [] => []
  | x, p :: ps => backward segs (x ++ p.keep ++ p.old) ps ++ swap segs (x ++ p.keep) p.old p.new

/-- The edits from the first to the last, with the positions they have in the text as changed so far. -/
def forward (segs : Text → List Text) : Text → List Piece → List Cmd
  | _, [] => []
  | x, p :: ps => swap segs (x ++ p.keep) p.old p.new ++ forward segs (x ++ p.keep ++ p.new) ps

/-- Cut what is between the places after `x` and after `x ++ s`, and paste `s` after `z`. -/
def cutPaste (segs : Text → List Text) (x s z : Text) : List Cmd :=
  [.deleteRange (endPos (segs x)) (endPos (segs (x ++ s))), .move (.to (endPos (segs z))), .insert s]

/-- All parts of the edits are made of clusters in `P`. -/
def Pieces (segs : Text → List Text) (P : Text → Prop) (ps : List Piece) : Prop :=
  ∀ p ∈ ps, Over segs P p.keep ∧ Over segs P p.old ∧ Over segs P p.new

end Scribe.Spec
