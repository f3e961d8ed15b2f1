import Verif.Spec.Workspace
import Verif.Model.Fields
/-!
# Specification of programs that assign to the public fields of a workspace

There is always a list of buffers with a selection. If the program takes the current buffer out, an empty buffer stands in its place; the program sees that
buffer only when it comes back to that place. A buffer put into an *empty* workspace is not in the list: it is a stray, and adding a buffer
then panics.
-/
namespace Scribe.Spec
variable {σ : Type}

/-- The path shown for a path in a workspace at `root`. -/
def shownPath (root : Path) (p : Path) : Path := if root <+: p then p.drop root.length else p

/-- The workspace as a program sees it. `out`: there is no current buffer although a place is selected. `stray`: the buffer that
was put into an empty workspace. -/
structure Bench (σ : Type) where
  desk : Desk σ
  out : Bool
  stray : Option (FileBuf σ)
  path : Path
  syntaxes : Syntaxes σ

namespace Bench

/-- `current_buffer`. -/
def current (b : Bench σ) : Option (FileBuf σ) :=
  match b.stray with
  | some x => some x
  | none => if b.out then none else b.desk.tabs.selected

/-- Whether the file can be opened. -/
def opens (f1 f2 : Fs) (p : Path) : Bool := (f1.readToString p).isSome && (f2.canon p).isSome

/-- A call while a stray buffer `x` is there; `none` is a panic. -/
def strayCall (b : Bench σ) (x : FileBuf σ) : Workspace.Call σ → Option (Bool × Bench σ)
  | .add _ => none
  | .openPath _ f0 f1 f2 p =>
    if (f0.canon p).isSome ∧ x.path = f0.canon p then some (true, b)
    else if opens f1 f2 p then none
    else some (false, b)
  | .close => some (true, { b with stray := none })
  | .next => some (true, b)
  | .previous => some (true, b)
  | .edit f => some (true, { b with stray := some (f x) })
  | .updateSyntax => some (true, { b with stray := some { x with syn := some (chooseSyntax b.syntaxes x) } })

/-- A call while the current buffer has been taken out: as if the empty buffer were the current one, but that one cannot be edited. -/
def outCall (A : Alloc) (b : Bench σ) (c : Workspace.Call σ) : Bool × Bench σ :=
  match c with
  | .edit _ => (true, b)
  | .updateSyntax => (false, b)
  | _ =>
    let r := b.desk.call A b.syntaxes c
    (r.1, { b with desk := r.2, out := !r.1 })

/-- One step; `none` is a panic. -/
def step (A : Alloc) (b : Bench σ) : Workspace.Step σ → Option (Bool × Bench σ)
  | .setPath p => some (true, { b with path := p })
  | .setSyntaxes s => some (true, { b with syntaxes := s })
  | .put none =>
    if b.desk.tabs.items.isEmpty then some (true, { b with stray := none })
    else some (true, { b with desk := ⟨b.desk.tabs.edit fun _ => FileBuf.new A 0, b.desk.nextId⟩, out := true })
  | .put (some x) =>
    if b.desk.tabs.items.isEmpty then some (true, { b with stray := some x })
    else some (true, { b with desk := ⟨b.desk.tabs.edit fun _ => x, b.desk.nextId⟩, out := false })
  | .call c =>
    match b.stray with
    | some x => b.strayCall x c
    | none =>
      if b.out then some (b.outCall A c)
      else
        let r := b.desk.call A b.syntaxes c
        some (r.1, { b with desk := r.2 })

/-- A program; `none` is a panic. -/
def steps (A : Alloc) (b : Bench σ) : List (Workspace.Step σ) → Option (List Bool × Bench σ)
  | [] => some ([], b)
  | c :: cs =>
    match b.step A c with
    | none => none
    | some (r, b) =>
      match b.steps A cs with
      | none => none
      | some (rs, b) => some (r :: rs, b)

/-- A new workspace. -/
def new (path : Path) (s : Syntaxes σ) : Bench σ := ⟨⟨⟨[], 0⟩, 0⟩, false, none, path, s⟩

end Bench
end Scribe.Spec
