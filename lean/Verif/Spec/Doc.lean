import Verif.Spec.Text
import Verif.Spec.Cursor
import Verif.Model.Buffer
/-!
# Specification of a buffer with undo

A document whose history is a list of *edits*, each remembering the whole text before and after. Undoing and
redoing put the remembered texts back; nothing is ever recomputed. There is no gap buffer.
-/
namespace Scribe.Spec
open Buf (Cmd)

/-- One edit of the text. -/
structure Edit where
  before : Text
  after : Text
  /-- position reported to the change callback when the edit is applied -/
  at_ : Position
  /-- position reported when it is undone, if one is -/
  undoAt : Option Position
  /-- the whole text was replaced: the cursor is placed again -/
  whole : Bool
  deriving DecidableEq, Repr

/-- A document. The last edit of a group, and of the undo stack, comes first in `undo` and `redo`, while each
group lists its edits from first to last. -/
structure Doc where
  text : Text
  cursor : Cursor
  undo : List (List Edit)
  redo : List (List Edit)
  /-- the open group -/
  group : Option (List Edit)
  /-- number of undoable steps at the last save, if that state can still be reached -/
  mark : Option Nat
  callback : Bool
  log : List Position
  deriving DecidableEq, Repr

variable (segs : Text → List Text)

/-- Where the cursor goes when the whole text is replaced. -/
def placeCursor (t : Text) (p : Position) : Cursor :=
  if exists? segs t p then ⟨p, p.offset⟩
  else if exists? segs t ⟨p.line, 0⟩ then ⟨⟨p.line, 0⟩, 0⟩
  else ⟨⟨0, 0⟩, 0⟩

namespace Doc

/-- Tell the callback, if there is one. -/
def report (d : Doc) : Option Position → Doc
  | some p => if d.callback then { d with log := d.log ++ [p] } else d
  | none => d

/-- Change the text. -/
def setText (d : Doc) (t : Text) (whole : Bool) : Doc :=
  { d with text := t, cursor := if whole then placeCursor segs t d.cursor.position else d.cursor }

def apply (d : Doc) (e : Edit) : Doc := (setText segs d e.after e.whole).report (some e.at_)
def revert (d : Doc) (e : Edit) : Doc := (setText segs d e.before e.whole).report e.undoAt

def applyAll (d : Doc) (es : List Edit) : Doc := es.foldl (apply segs) d
def revertAll (d : Doc) (es : List Edit) : Doc := es.reverse.foldl (revert segs) d

/-- A new undoable step: there is nothing to redo any more, and a saved state that was ahead is lost. -/
def push (d : Doc) (es : List Edit) : Doc :=
  { d with undo := es :: d.undo, redo := [],
           mark := d.mark.filter fun m => decide (m ≤ d.undo.length) }

/-- Perform a new edit. -/
def edit (d : Doc) (e : Edit) : Doc :=
  let d := apply segs d e
  match d.group with
  | some es => { d with group := some (es ++ [e]) }
  | none => d.push [e]

/-- The edits made by the API. -/
def insertEdit (t s : Text) (p : Position) : Edit := ⟨t, insertAt segs t s p, p, some p, false⟩
def deleteEdit (t : Text) (p q : Position) : Edit :=
  ⟨t, Spec.deleteRange segs t p q, p, if (exists? segs t p && exists? segs t q) then some p else none, false⟩
def replaceEdit (t s : Text) : Edit := ⟨t, s, ⟨0, 0⟩, some ⟨0, 0⟩, true⟩

/-- Where `delete` stops: after the cluster at the cursor; failing that, at the start of the next line. -/
def deleteEnd (t : Text) (p : Position) : Position :=
  if exists? segs t ⟨p.line, p.offset + 1⟩ then ⟨p.line, p.offset + 1⟩ else ⟨p.line + 1, 0⟩

/-- Undo. -/
def undo1 (d : Doc) : Doc :=
  match d.group with
  | some (e :: es) => revertAll segs { d with group := none } (e :: es)
  | _ =>
    match d.undo with
    | es :: rest => revertAll segs { d with group := none, undo := rest, redo := es :: d.redo } es
    | [] => { d with group := none }

/-- Redo. -/
def redo1 (d : Doc) : Doc :=
  match d.redo with
  | es :: rest => applyAll segs { d with undo := es :: d.undo, redo := rest } es
  | [] => d

/-- End of a group. -/
def endGroup (d : Doc) : Doc :=
  match d.group with
  | some (e :: es) => { d with group := none }.push (e :: es)
  | _ => { d with group := none }

def replace (d : Doc) (c : Text) : Doc := if c = d.text then d else d.edit segs (replaceEdit d.text c)

/-- One API call. -/
def step (d : Doc) : Cmd → Doc
  | .insert s => d.edit segs (insertEdit segs d.text s d.cursor.position)
  | .delete => d.edit segs (deleteEdit segs d.text d.cursor.position (deleteEnd segs d.text d.cursor.position))
  | .deleteRange p q => d.edit segs (deleteEdit segs d.text (lo p q) (hi p q))
  | .replace c => d.replace segs c
  | .undo => d.undo1 segs
  | .redo => d.redo1 segs
  | .startGroup => { d with group := some (d.group.getD []) }
  | .endGroup => d.endGroup
  | .move m => { d with cursor := moveCursor segs d.text d.cursor m }
  | .setCursor p => { d with cursor := { d.cursor with position := p } }
  | .setCallback set => { d with callback := set }
  | .saved => { d with mark := some d.undo.length }
  | .reload c =>
    let d := d.replace segs c
    { d with mark := some d.undo.length }

/-- A sequence of API calls. -/
def steps (d : Doc) (cs : List Cmd) : Doc := cs.foldl (step segs) d

/-- A new document. -/
def new (t : Text) (marked : Bool) : Doc :=
  ⟨t, ⟨⟨0, 0⟩, 0⟩, [], [], none, if marked then some 0 else none, false, []⟩

end Doc

/-- A deletion that does not fuse clusters and, if it removes anything, has an existing end. -/
def CleanRange (t : Text) (p q : Position) : Prop :=
  CleanDelete segs t p q ∧ (exists? segs t q = true ∨ deleteRange segs t p q = t)

/-- The calls for which the implementation is claimed to be correct:
* an insertion must not fuse clusters with its neighbours and must not contain a CRLF cluster;
* a deletion must not fuse the clusters on its two sides, and if it removes anything its end must exist;
* redo must not be called with a non-empty open group (unless there is nothing to redo).
`Verif/Props/Findings.lean` shows for each of these conditions what goes wrong without it. -/
def CleanCmd (d : Doc) : Cmd → Prop
  | .insert s => CleanInsert segs d.text s d.cursor.position ∧ ['\r', '\n'] ∉ segs s
  | .delete => CleanDelete segs d.text d.cursor.position (Doc.deleteEnd segs d.text d.cursor.position)
  | .deleteRange p q => CleanRange segs d.text (lo p q) (hi p q)
  | .redo => d.redo = [] ∨ d.group = none ∨ d.group = some []
  | _ => True

/-- Every call of a sequence is clean. -/
def CleanCmds (d : Doc) : List Cmd → Prop
  | [] => True
  | c :: cs => CleanCmd segs d c ∧ CleanCmds (d.step segs c) cs

end Scribe.Spec
