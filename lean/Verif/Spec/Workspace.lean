import Verif.Model.Workspace
/-!
# Specification of workspaces

A workspace is a list of buffers with a selected index.
-/
namespace Scribe.Spec
variable {σ : Type}

/-- A list with a selected position (meaningless if the list is empty). -/
structure Tabs (α : Type) where
  items : List α
  sel : Nat

namespace Tabs
variable {α : Type}

/-- The selected item. -/
def selected (t : Tabs α) : Option α := t.items[t.sel]?

/-- Insert after the selected item, and select the new one. -/
def add (t : Tabs α) (x : α) : Tabs α :=
  match t.items with
  | [] => ⟨[x], 0⟩
  | _ => ⟨t.items.take (t.sel + 1) ++ x :: t.items.drop (t.sel + 1), t.sel + 1⟩

/-- Remove the selected item, and select the one before it (the new first one if there is none before it). -/
def close (t : Tabs α) : Tabs α := ⟨t.items.take t.sel ++ t.items.drop (t.sel + 1), t.sel - 1⟩

/-- Select the next item, cyclically. -/
def next (t : Tabs α) : Tabs α := ⟨t.items, (t.sel + 1) % t.items.length⟩

/-- Select the previous item, cyclically. -/
def previous (t : Tabs α) : Tabs α := ⟨t.items, (t.sel + t.items.length - 1) % t.items.length⟩

/-- Change the selected item. -/
def edit (t : Tabs α) (f : α → α) : Tabs α := ⟨t.items.modify t.sel f, t.sel⟩

end Tabs

/-- The syntax for a buffer that has none: by extension if it has one, else by file name; plain text if that gives nothing. -/
def chooseSyntax (s : Syntaxes σ) (b : FileBuf σ) : σ :=
  match b.fileExtension with
  | some e => (s.find e).getD s.plain
  | none =>
    match b.fileName with
    | some n => (s.find n).getD s.plain
    | none => s.plain

/-- A buffer as it is when it has been added: it has got an id, and a syntax if it had none. -/
def adopted (s : Syntaxes σ) (id : Nat) (b : FileBuf σ) : FileBuf σ :=
  { b with id := some id, syn := some (b.syn.getD (chooseSyntax s b)) }

/-- The abstract workspace: the buffers with the selection, and the next id. -/
structure Desk (σ : Type) where
  tabs : Tabs (FileBuf σ)
  nextId : Nat

/-- Where a buffer with that path is: the selected one if it has that path, else the first. -/
def findPath (t : Tabs (FileBuf σ)) (p : Path) : Option Nat :=
  if t.selected.bind (·.path) = some p then some t.sel else t.items.findIdx? fun b => decide (b.path = some p)

/-- What a call does, and whether it succeeds. -/
def Desk.call (A : Alloc) (s : Syntaxes σ) (d : Desk σ) : Workspace.Call σ → Bool × Desk σ
  | .add b => (true, ⟨d.tabs.add (adopted s d.nextId b), d.nextId + 1⟩)
  | .openPath clock f0 f1 f2 p =>
    match (f0.canon p).bind (findPath d.tabs) with
    | some i => (true, ⟨⟨d.tabs.items, i⟩, d.nextId⟩)
    | none =>
      match f1.readToString p, f2.canon p with
      | some text, some c => (true, ⟨d.tabs.add (adopted s d.nextId ⟨Buf.fromContent A clock text, none, some c, none⟩), d.nextId + 1⟩)
      | _, _ => (false, d)
  | .close => (true, ⟨d.tabs.close, d.nextId⟩)
  | .next => (true, ⟨d.tabs.next, d.nextId⟩)
  | .previous => (true, ⟨d.tabs.previous, d.nextId⟩)
  | .edit f => (true, ⟨d.tabs.edit f, d.nextId⟩)
  | .updateSyntax => (!d.tabs.items.isEmpty, ⟨d.tabs.edit fun b => { b with syn := some (chooseSyntax s b) }, d.nextId⟩)

/-- What a sequence of calls does. -/
def Desk.calls (A : Alloc) (s : Syntaxes σ) (d : Desk σ) : List (Workspace.Call σ) → Desk σ
  | [] => d
  | c :: cs => (d.call A s c).2.calls A s cs

end Scribe.Spec

namespace Scribe.Props
open Spec Workspace
variable {σ : Type}

/-- All open buffers in order: the list, with the current buffer in its place. -/
def contents (w : Workspace σ) : List (FileBuf σ) :=
  match w.index, w.current with
  | some i, some c => w.buffers.set i c
  | _, _ => w.buffers

/-- `w` can be reached from a new workspace by the calls `cs`. -/
def Runs (A : Alloc) (s : Syntaxes σ) (cs : List (Call σ)) (w : Workspace σ) : Prop :=
  ∃ fs path w0, Workspace.new fs path (some s) = some w0 ∧ w0.calls A cs = .ok w

/-- The abstract state at the beginning. -/
def nothing : Desk σ := ⟨⟨[], 0⟩, 0⟩

/-- Calls that only select. -/
def Selects : Call σ → Prop
  | .next | .previous | .openPath .. => True
  | _ => False

/-- Uses of the current buffer that do not change its id. -/
def KeepsId : Call σ → Prop
  | .edit f => ∀ b, (f b).id = b.id
  | _ => True

/-- Calls of a program that opens files only with `open_buffer` and does not overwrite the path of a buffer. During one `open_buffer` call the path
that is opened keeps its canonical form; between calls the file system may change in any way. -/
def OpensOnly : Call σ → Prop
  | .add _ => False
  | .edit f => ∀ b, (f b).path = b.path
  | .openPath _ f0 _ f2 p => f0.canon p = f2.canon p
  | _ => True

/-- Uses of the current buffer that do not take away its syntax. -/
def KeepsSyntax : Call σ → Prop
  | .edit f => ∀ b, b.syn.isSome → (f b).syn.isSome
  | _ => True

end Scribe.Props
