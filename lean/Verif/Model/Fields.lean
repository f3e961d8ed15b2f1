import Verif.Model.Workspace
/-!
# Programs that assign to the public fields of a workspace

`current_buffer`, `path` and `syntax_set` of `Workspace` are public (src/workspace.rs:11-18): a program may take the current buffer out, put another one
there (also into an empty workspace), or replace the path or the syntax set.
-/
namespace Scribe.Workspace
variable {σ : Type}

/-- A call on a workspace, or an assignment to a public field. -/
inductive Step (σ : Type) where
  | call (c : Call σ)
  | put (b : Option (FileBuf σ))
  | setPath (p : Path)
  | setSyntaxes (s : Syntaxes σ)

/-- Runs one step; the flag is `false` if a call returns an error. src/workspace.rs:12, 15 and 17 for the fields. -/
def step (A : Alloc) (w : Workspace σ) : Step σ → R (Bool × Workspace σ)
  | .call c => call A w c
  | .put b => .ok (true, { w with current := b })
  | .setPath p => .ok (true, { w with path := p })
  | .setSyntaxes s => .ok (true, { w with syntaxes := s })

/-- Runs a program, collecting the flags. -/
def steps (A : Alloc) (w : Workspace σ) : List (Step σ) → R (List Bool × Workspace σ)
  | [] => .ok ([], w)
  | c :: cs => do
    let (r, w) ← step A w c
    let (rs, w) ← steps A w cs
    return (r :: rs, w)

end Scribe.Workspace
