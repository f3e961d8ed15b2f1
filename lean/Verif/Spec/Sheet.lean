import Verif.Spec.Text
import Verif.Model.Buffer
/-!
# An editor of lines

The state is a list of rows, each a list of clusters, without newlines. Every call is defined on rows: there are no strings, no positions to search for and no gap.
-/
namespace Scribe.Spec
open Buf (Cmd)

abbrev Page := List (List Text)

/-- Clusters as rows. -/
def rows : List Text → Page
  | [] => [[]]
  | c :: cs =>
    if c = ['\n'] then [] :: rows cs
    else match rows cs with
      | [] => [[c]]
      | r :: rs => (c :: r) :: rs

namespace Page

/-- The text of a page: newlines between the rows. -/
def text (L : Page) : Text := ['\n'].intercalate (L.map List.flatten)

/-- The position is on the page. -/
def has (L : Page) (p : Position) : Bool :=
  match L[p.line]? with
  | some r => decide (p.offset ≤ r.length)
  | none => false

/-- The page up to a position, and from it on. -/
def upTo (L : Page) (p : Position) : Page := L.take p.line ++ [(L[p.line]?.getD []).take p.offset]
def onFrom (L : Page) (p : Position) : Page := (L[p.line]?.getD []).drop p.offset :: L.drop (p.line + 1)

/-- One page after the other, the first row of the second continuing the last row of the first. -/
def glue : Page → Page → Page
  | [], M => M
  | [r], [] => [r]
  | [r], s :: M => (r ++ s) :: M
  | r :: r' :: L, M => r :: glue (r' :: L) M

/-- Insertion. -/
def insert (L : Page) (p : Position) (M : Page) : Page := if L.has p then glue (glue (L.upTo p) M) (L.onFrom p) else L

/-- Deletion from `p` to `q`. If there is no `q`, to the start of the row after that of `q`; if there is none, to the end. -/
def remove (L : Page) (p q : Position) : Page :=
  if L.has p then glue (L.upTo p) (if L.has q then L.onFrom q else if q.line + 1 < L.length then L.drop (q.line + 1) else [[]])
  else L

/-- Deletion at `p`: of the cluster there; at the end of a row the next row continues it. -/
def erase (L : Page) (p : Position) : Page :=
  match L[p.line]? with
  | some r =>
    if p.offset < r.length then L.set p.line (r.eraseIdx p.offset)
    else if p.offset = r.length then
      match L[p.line + 1]? with
      | some r' => (L.set p.line (r ++ r')).eraseIdx (p.line + 1)
      | none => L
    else L
  | none => L

/-- What is between `p` and `q`. -/
def between (L : Page) (p q : Position) : Option Page := if L.has p && L.has q then some ((L.upTo q).onFrom p) else none

/-- Move to a position, if it is on the page. -/
def goTo (L : Page) (c : Cursor) (p : Position) : Cursor := if L.has p then ⟨p, p.offset⟩ else c

/-- Move to another row, to the sticky column or the end of the row. -/
def goToRow (L : Page) (c : Cursor) (l : Nat) : Cursor :=
  match L[l]? with
  | some r => ⟨⟨l, min c.sticky r.length⟩, c.sticky⟩
  | none => c

/-- Movements. (On an empty last row `move_to_end_of_line` does nothing, so the sticky column remains.) -/
def move (L : Page) (c : Cursor) : Cursor.Move → Cursor
  | .to p => L.goTo c p
  | .up => if c.position.line = 0 then c else L.goToRow c (c.position.line - 1)
  | .down => L.goToRow c (c.position.line + 1)
  | .left => if c.position.offset = 0 then c else L.goTo c ⟨c.position.line, c.position.offset - 1⟩
  | .right => L.goTo c ⟨c.position.line, c.position.offset + 1⟩
  | .startOfLine => L.goTo c ⟨c.position.line, 0⟩
  | .endOfLine =>
    match L[c.position.line]? with
    | some [] => if c.position.line + 1 = L.length then c else ⟨⟨c.position.line, 0⟩, 0⟩
    | some r => ⟨⟨c.position.line, r.length⟩, r.length⟩
    | none => c
  | .lastLine =>
    let o := min c.sticky (L.getLast?.getD []).length
    ⟨⟨L.length - 1, o⟩, o⟩
  | .firstLine =>
    let o := min c.sticky (L.head?.getD []).length
    ⟨⟨0, o⟩, o⟩

/-- Where the cursor goes when the whole page is replaced. -/
def place (L : Page) (p : Position) : Cursor :=
  if L.has p then ⟨p, p.offset⟩ else if p.line < L.length then ⟨⟨p.line, 0⟩, 0⟩ else ⟨⟨0, 0⟩, 0⟩

end Page

/-- An edit: the page before and after, and whether the whole page was replaced. -/
structure Change where
  before : Page
  after : Page
  whole : Bool
  deriving DecidableEq, Repr

/-- The editor. Latest steps first; the changes of a step from first to last. -/
structure LineEditor where
  page : Page
  cursor : Cursor
  undo : List (List Change)
  redo : List (List Change)
  group : Option (List Change)
  /-- number of undoable steps at the last save, if that state can still be reached -/
  mark : Option Nat
  deriving DecidableEq, Repr

namespace LineEditor
variable (segs : Text → List Text)

def new (L : Page) (marked : Bool) : LineEditor := ⟨L, ⟨⟨0, 0⟩, 0⟩, [], [], none, if marked then some 0 else none⟩

/-- Put a page in. -/
def show_ (s : LineEditor) (L : Page) (whole : Bool) : LineEditor := { s with page := L, cursor := if whole then L.place s.cursor.position else s.cursor }

def push (s : LineEditor) (es : List Change) : LineEditor :=
  { s with undo := es :: s.undo, redo := [], mark := s.mark.filter fun m => decide (m ≤ s.undo.length) }

def edit (s : LineEditor) (L : Page) (whole : Bool) : LineEditor :=
  let e : Change := ⟨s.page, L, whole⟩
  let s := s.show_ L whole
  match s.group with
  | some es => { s with group := some (es ++ [e]) }
  | none => s.push [e]

def forward (s : LineEditor) (es : List Change) : LineEditor := es.foldl (fun s e => s.show_ e.after e.whole) s
def backward (s : LineEditor) (es : List Change) : LineEditor := es.reverse.foldl (fun s e => s.show_ e.before e.whole) s

def replace (s : LineEditor) (L : Page) : LineEditor := if L = s.page then s else s.edit L true

/-- One call. -/
def step (s : LineEditor) : Cmd → LineEditor
  | .insert t => s.edit (s.page.insert s.cursor.position (rows (segs t))) false
  | .delete => s.edit (s.page.erase s.cursor.position) false
  | .deleteRange p q => s.edit (s.page.remove (lo p q) (hi p q)) false
  | .replace t => s.replace (rows (segs t))
  | .undo =>
    match s.group with
    | some (e :: es) => { s with group := none }.backward (e :: es)
    | _ =>
      match s.undo with
      | es :: rest => { s with group := none, undo := rest, redo := es :: s.redo }.backward es
      | [] => { s with group := none }
  | .redo =>
    match s.redo with
    | es :: rest => { s with undo := es :: s.undo, redo := rest }.forward es
    | [] => s
  | .startGroup => { s with group := some (s.group.getD []) }
  | .endGroup =>
    match s.group with
    | some (e :: es) => { s with group := none }.push (e :: es)
    | _ => { s with group := none }
  | .move m => { s with cursor := s.page.move s.cursor m }
  | .setCursor p => { s with cursor := { s.cursor with position := p } }
  | .setCallback _ => s
  | .saved => { s with mark := some s.undo.length }
  | .reload t =>
    let s := s.replace (rows (segs t))
    { s with mark := some s.undo.length }

def steps (s : LineEditor) (cs : List Cmd) : LineEditor := cs.foldl (step segs) s

/-- Calls for which this is claimed: strings are made of clusters of `P`; the end of a range to delete is on the page, or its start is not; no redo while a group with
edits is open, unless there is nothing to redo. -/
def Fit (P : Text → Prop) (s : LineEditor) : Cmd → Prop
  | .insert t | .replace t | .reload t => ∀ c ∈ segs t, P c
  | .deleteRange p q => s.page.has (hi p q) = true ∨ s.page.has (lo p q) = false
  | .redo => s.redo = [] ∨ s.group = none ∨ s.group = some []
  | _ => True

def FitAll (P : Text → Prop) (s : LineEditor) : List Cmd → Prop
  | [] => True
  | c :: cs => Fit segs P s c ∧ FitAll P (s.step segs c) cs

/-- `modified()`. -/
def modified (s : LineEditor) : Bool := s.mark != some s.undo.length

end LineEditor

/-- An edit within one line: the `len` clusters from `start` on are replaced by `put`. -/
structure RowEdit where
  line : Nat
  start : Nat
  len : Nat
  put : Text
  deriving DecidableEq, Repr

namespace RowEdit

/-- The calls. -/
def calls (e : RowEdit) : List Cmd := [.move (.to ⟨e.line, e.start⟩), .deleteRange ⟨e.line, e.start⟩ ⟨e.line, e.start + e.len⟩, .insert e.put]

/-- What happens to the row. -/
def on (segs : Text → List Text) (r : List Text) (e : RowEdit) : List Text := r.take e.start ++ segs e.put ++ r.drop (e.start + e.len)

/-- The clusters to be replaced are there, each time. -/
def Allowed (segs : Text → List Text) (r : List Text) : List RowEdit → Prop
  | [] => True
  | e :: es => e.start + e.len ≤ r.length ∧ Allowed segs (on segs r e) es

instance decAllowed (segs : Text → List Text) : (r : List Text) → (es : List RowEdit) → Decidable (Allowed segs r es)
  | _, [] => isTrue trivial
  | r, e :: es => @instDecidableAnd _ _ _ (decAllowed segs (on segs r e) es)

/-- The edits of one line, in their order. -/
def ofLine (es : List RowEdit) (i : Nat) : List RowEdit := es.filter fun e => e.line == i

end RowEdit
end Scribe.Spec
