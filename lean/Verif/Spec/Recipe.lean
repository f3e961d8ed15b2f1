import Verif.Spec.Zipper
import Verif.Spec.Doc
/-!
# What a buffer does, for every sequence of calls

Unlike `Doc`, whose history remembers texts, this document remembers *recipes*: what was inserted where, what was removed from
where, and performs them, or their opposites, on whatever the text is by then. The text is a `Zip`.
-/
namespace Scribe.Spec
open Buf (Cmd)

/-- One remembered edit. -/
inductive Recipe where
  /-- `s` was inserted at `p` -/
  | put (s : Text) (p : Position)
  /-- the text from `p` to `q` was removed; it was `old`, unless one of the ends did not exist -/
  | cut (old : Option Text) (p q : Position)
  /-- the whole text was replaced -/
  | swap (old new : Text)
  deriving DecidableEq, Repr

structure ZDoc where
  zip : Zip
  cursor : Cursor
  undo : List (List Recipe)
  redo : List (List Recipe)
  group : Option (List Recipe)
  mark : Option Nat
  callback : Bool
  log : List Position
  deriving DecidableEq, Repr

variable (segs : Text → List Text) (grant : Nat → Nat → Nat → Nat)

namespace Zip

/-- The text. -/
def text (z : Zip) : Text := z.left ++ z.right

/-- The position exists. -/
def has (z : Zip) (p : Position) : Bool := (locate (z.clusters segs) p).isSome

/-- A new gap buffer. -/
def fresh (k : Nat) (t : Text) : Zip := ⟨t, [], blen t + grant k (blen t) 0, k + 1⟩

/-- Movement to a position, if it exists. -/
def goto (z : Zip) (c : Cursor) (p : Position) : Cursor := if z.has segs p then ⟨p, p.offset⟩ else c

/-- The length of a line as `str::lines` sees it. -/
def lineStop (z : Zip) (l : Nat) : Nat := ((strLines z.text)[l]?.map fun x => (segs x).length).getD 0

/-- Movement to a line: to the sticky column, else to the end of the line. -/
def gotoLine (z : Zip) (c : Cursor) (l : Nat) : Cursor :=
  if z.has segs ⟨l, c.sticky⟩ then ⟨⟨l, c.sticky⟩, c.sticky⟩
  else if z.has segs ⟨l, z.lineStop segs l⟩ then ⟨⟨l, z.lineStop segs l⟩, c.sticky⟩
  else c

/-- The movements. Positions are counted around the gap, lines and their lengths without it. -/
def moveCursor (z : Zip) (c : Cursor) : Cursor.Move → Cursor
  | .to p => z.goto segs c p
  | .up => if c.position.line = 0 then c else z.gotoLine segs c (c.position.line - 1)
  | .down => z.gotoLine segs c (c.position.line + 1)
  | .left => if c.position.offset = 0 then c else z.goto segs c ⟨c.position.line, c.position.offset - 1⟩
  | .right => z.goto segs c ⟨c.position.line, c.position.offset + 1⟩
  | .startOfLine => z.goto segs c ⟨c.position.line, 0⟩
  | .endOfLine =>
    if c.position.line < (strLines z.text).length then z.goto segs c ⟨c.position.line, z.lineStop segs c.position.line⟩ else c
  | .lastLine => z.goto segs c ⟨(endPos (segs z.text)).line, min c.sticky (endPos (segs z.text)).offset⟩
  | .firstLine => z.goto segs c ⟨0, min c.sticky (z.lineStop segs 0)⟩

end Zip

/-- The end of `s` inserted at `p`, as undo computes it: by counting newlines, also inside CRLF clusters. -/
def putEnd (s : Text) (p : Position) : Position :=
  if countNl s = 0 then ⟨p.line, p.offset + (segs s).length⟩
  else ⟨p.line + countNl s, (segs ((splitNl s).getLast?.getD [])).length⟩

namespace ZDoc

/-- Tell the callback, if there is one. -/
def report (d : ZDoc) (p : Position) : ZDoc := if d.callback then { d with log := d.log ++ [p] } else d

/-- Throw the text away for another one. -/
def swapIn (d : ZDoc) (t : Text) : ZDoc :=
  let z := Zip.fresh grant d.zip.clock t
  let p := d.cursor.position
  let c : Cursor := if z.has segs p then ⟨p, p.offset⟩ else z.goto segs ⟨⟨0, 0⟩, 0⟩ ⟨p.line, 0⟩
  { d with zip := z, cursor := c }.report ⟨0, 0⟩

/-- Change the text by a call of the gap buffer. -/
def alter (d : ZDoc) (c : GapBuffer.Call) (p : Position) : ZDoc := { d with zip := (d.zip.call segs grant c).2 }.report p

/-- What is between two positions. -/
def between (d : ZDoc) (p q : Position) : Option Text :=
  match locate (d.zip.clusters segs) p, locate (d.zip.clusters segs) q with
  | some (a, _), some (a', _) => some (a'.drop a.length).flatten
  | _, _ => none

/-- Perform a recipe. -/
def perform (d : ZDoc) : Recipe → ZDoc
  | .put s p => d.alter segs grant (.insert s p) p
  | .cut _ p q => d.alter segs grant (.delete p q) p
  | .swap _ new => d.swapIn segs grant new

/-- Perform its opposite. -/
def revert (d : ZDoc) : Recipe → ZDoc
  | .put s p => d.alter segs grant (.delete p (putEnd segs s p)) p
  | .cut (some old) p _ => d.alter segs grant (.insert old p) p
  | .cut none _ _ => d
  | .swap old _ => d.swapIn segs grant old

def performAll (d : ZDoc) (rs : List Recipe) : ZDoc := rs.foldl (perform segs grant) d
def revertAll (d : ZDoc) (rs : List Recipe) : ZDoc := rs.reverse.foldl (revert segs grant) d

/-- A new undoable step. -/
def push (d : ZDoc) (rs : List Recipe) : ZDoc :=
  { d with undo := rs :: d.undo, redo := [], mark := d.mark.filter fun m => decide (m ≤ d.undo.length) }

/-- Perform and remember. -/
def edit (d : ZDoc) (r : Recipe) : ZDoc :=
  let d := d.perform segs grant r
  match d.group with
  | some rs => { d with group := some (rs ++ [r]) }
  | none => d.push [r]

/-- The recipe of a deletion. -/
def cutNow (d : ZDoc) (p q : Position) : Recipe := .cut (d.between segs (lo p q) (hi p q)) (lo p q) (hi p q)

/-- Where `delete` stops. -/
def deleteEnd (d : ZDoc) : Position :=
  let p := d.cursor.position
  if d.zip.has segs ⟨p.line, p.offset + 1⟩ then ⟨p.line, p.offset + 1⟩ else ⟨p.line + 1, 0⟩

def undo1 (d : ZDoc) : ZDoc :=
  match d.group with
  | some (r :: rs) => revertAll segs grant { d with group := none } (r :: rs)
  | _ =>
    match d.undo with
    | rs :: rest => revertAll segs grant { d with group := none, undo := rest, redo := rs :: d.redo } rs
    | [] => { d with group := none }

def redo1 (d : ZDoc) : ZDoc :=
  match d.redo with
  | rs :: rest => performAll segs grant { d with undo := rs :: d.undo, redo := rest } rs
  | [] => d

def endGroup (d : ZDoc) : ZDoc :=
  match d.group with
  | some (r :: rs) => { d with group := none }.push (r :: rs)
  | _ => { d with group := none }

def replace (d : ZDoc) (c : Text) : ZDoc := if c = d.zip.text then d else d.edit segs grant (.swap d.zip.text c)

/-- One call. -/
def step (d : ZDoc) : Cmd → ZDoc
  | .insert s => d.edit segs grant (.put s d.cursor.position)
  | .delete => d.edit segs grant (d.cutNow segs d.cursor.position (d.deleteEnd segs))
  | .deleteRange p q => d.edit segs grant (d.cutNow segs p q)
  | .replace c => d.replace segs grant c
  | .undo => d.undo1 segs grant
  | .redo => d.redo1 segs grant
  | .startGroup => { d with group := some (d.group.getD []) }
  | .endGroup => d.endGroup
  | .move m => { d with cursor := d.zip.moveCursor segs d.cursor m }
  | .setCursor p => { d with cursor := { d.cursor with position := p } }
  | .setCallback set => { d with callback := set }
  | .saved => { d with mark := some d.undo.length }
  | .reload c =>
    let d := d.replace segs grant c
    { d with mark := some d.undo.length }

def steps (d : ZDoc) (cs : List Cmd) : ZDoc := cs.foldl (step segs grant) d

/-- A new document. -/
def new (k : Nat) (t : Text) (marked : Bool) : ZDoc :=
  ⟨Zip.fresh grant k t, ⟨⟨0, 0⟩, 0⟩, [], [], none, if marked then some 0 else none, false, []⟩

end ZDoc
end Scribe.Spec
