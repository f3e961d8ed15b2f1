import Verif.Model.Session
import Verif.Spec.Workspace
import Verif.Spec.Recipe
/-!
# What a program using a workspace sees

A list of documents with a selection.
-/
namespace Scribe.Spec
variable {σ : Type}

/-- An open document. -/
structure Sheet (σ : Type) where
  doc : ZDoc
  id : Option Nat
  path : Option Path
  syn : Option σ

/-- The syntax for a path: by extension if it has one, else by file name; plain text if that gives nothing. -/
def syntaxFor (s : Syntaxes σ) (p : Option Path) : σ :=
  match p.bind fun p => p.extension.bind fun e => if e.isEmpty then none else some (lossy e) with
  | some e => (s.find e).getD s.plain
  | none =>
    match p.bind fun p => p.fileName.bind strict with
    | some n => (s.find n).getD s.plain
    | none => s.plain

/-- The open documents and the id of the next one. -/
structure Studio (σ : Type) where
  tabs : Tabs (Sheet σ)
  nextId : Nat

/-- At the beginning no document is open. -/
def noSheets : Studio σ := ⟨⟨[], 0⟩, 0⟩

namespace Studio
variable (segs : Text → List Text) (grant : Nat → Nat → Nat → Nat) (s : Syntaxes σ)

/-- A document is added after the selected one; it gets an id, and a syntax if it has none. -/
def add (e : Studio σ) (d : ZDoc) (path : Option Path) (syn : Option σ) : Studio σ :=
  ⟨e.tabs.add ⟨d, some e.nextId, path, some (syn.getD (syntaxFor s path))⟩, e.nextId + 1⟩

/-- Where a document with that path is: the selected one if it has that path, else the first. -/
def find (e : Studio σ) (p : Path) : Option Nat :=
  if e.tabs.selected.bind (·.path) = some p then some e.tabs.sel else e.tabs.items.findIdx? fun x => decide (x.path = some p)

/-- One action. -/
def act (e : Studio σ) : Act σ → Bool × Studio σ
  | .add clock content cs _ path syn =>
    (true, e.add s ((ZDoc.new grant clock (content.getD []) content.isSome).steps segs grant cs) path syn)
  | .openPath clock f0 f1 f2 p =>
    match (f0.canon p).bind e.find with
    | some i => (true, ⟨⟨e.tabs.items, i⟩, e.nextId⟩)
    | none =>
      match f1.readToString p, f2.canon p with
      | some text, some c => (true, e.add s (ZDoc.new grant clock text true) (some c) none)
      | _, _ => (false, e)
  | .close => (true, ⟨e.tabs.close, e.nextId⟩)
  | .next => (true, ⟨e.tabs.next, e.nextId⟩)
  | .previous => (true, ⟨e.tabs.previous, e.nextId⟩)
  | .updateSyntax => (!e.tabs.items.isEmpty, ⟨e.tabs.edit fun x => { x with syn := some (syntaxFor s x.path) }, e.nextId⟩)
  | .cmd c => (true, ⟨e.tabs.edit fun x => { x with doc := x.doc.step segs grant c }, e.nextId⟩)
  | .setPath p => (true, ⟨e.tabs.edit fun x => { x with path := p }, e.nextId⟩)
  | .setSyntax y => (true, ⟨e.tabs.edit fun x => { x with syn := y }, e.nextId⟩)

/-- Some actions. -/
def acts (e : Studio σ) : List (Act σ) → List Bool × Studio σ
  | [] => ([], e)
  | a :: as =>
    let r := e.act segs grant s a
    let rs := r.2.acts as
    (r.1 :: rs.1, rs.2)

end Studio

/-- The buffer shows the document. -/
structure Shows (segs : Text → List Text) (inBounds : GapBuffer → Position → R Bool) (b : FileBuf σ) (x : Sheet σ) : Prop where
  text : b.buf.data.toStr = .ok x.doc.zip.text
  cursor : b.buf.cursor = x.doc.cursor
  log : b.buf.log = x.doc.log
  modified : b.buf.modified = decide (x.doc.mark ≠ some x.doc.undo.length)
  undo : b.buf.history.previous.length = x.doc.undo.length
  redo : b.buf.history.next.length = x.doc.redo.length
  places : ∀ p, inBounds b.buf.data p = .ok (x.doc.zip.has segs p)
  id : b.id = x.id
  path : b.path = x.path
  syn : b.syn = x.syn

/-- The buffer is the result of calls on a buffer that has just been made. -/
def Born (S : Segmenter) (A : Alloc) (b : Buf) : Prop := ∃ k t cs, Buf.execAll S A (Workspace.startBuf A k t) cs = .ok b

end Scribe.Spec
