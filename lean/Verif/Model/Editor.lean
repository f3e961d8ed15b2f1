import Verif.Model.Session
/-!
# A program using a workspace on a disk

As `Verif/Model/Session.lean`, with a disk that only the program changes: it opens, saves and reloads files.
-/
namespace Scribe

/-- The directory tree, which does not change: the file that a path leads to (`none`: a directory on the way does not exist), and the canonical form of a path.
The canonical form of a path leads to the same file and is its own canonical form. A file may have several canonical paths (hard links). -/
structure FileTree where
  slot : Path → Option Nat
  real : Path → Path
  leads : ∀ p n, slot p = some n → slot (real p) = some n
  idem : ∀ p n, slot p = some n → real (real p) = real p

/-- What reading sees of a disk: `canonicalize` succeeds for files that exist; reading may be forbidden. -/
def FileTree.fs (W : FileTree) (disk : Disk) (readable : Bool) : Fs where
  read p := if readable then (W.slot p).bind disk else none
  canon p := (W.slot p).bind fun n => (disk n).map fun _ => W.real p

/-- `File::create`, if it does not fail, opens the file that the path leads to. -/
def FileTree.env (W : FileTree) (path : Option Path) (env : SaveEnv) : SaveEnv :=
  { env with create := env.create.map fun r => r.bind fun _ => W.slot (path.getD []) }

/-- The program's workspace and the disk. -/
structure Editor (σ : Type) where
  ws : Workspace σ
  disk : Disk

/-- What the program does. `cmd`, `save`, `saveAs` (assigning the path, then saving), `reload`: with `workspace.current_buffer`, if there is one. -/
inductive Deed (σ : Type) where
  | fresh (clock : Nat)
  | openPath (clock : Nat) (readable : Bool) (path : Path)
  | close
  | next
  | previous
  | updateSyntax
  | setSyntax (syn : Option σ)
  | cmd (c : Buf.Cmd)
  | save (env : SaveEnv)
  | saveAs (path : Path) (env : SaveEnv)
  | reload (readable : Bool)

namespace Editor
variable {σ : Type} (S : Segmenter) (A : Alloc) (W : FileTree)

/-- `save` of a buffer (src/buffer/mod.rs:180-196) that is the current one. -/
def saveBuf (e : Editor σ) (b : FileBuf σ) (env : SaveEnv) : R (Editor σ) := do
  let (steps, _, b) ← b.save (W.env b.path env) e.disk
  return ⟨{ e.ws with current := some b }, steps.getLast?.getD e.disk⟩

/-- One step. Calls that return an error change nothing but what the models of these calls say. -/
def step (e : Editor σ) : Deed σ → R (Editor σ)
  | .fresh clock => do return { e with ws := ← e.ws.addBuffer A (FileBuf.new A clock) }
  | .openPath clock readable p => do
    let fs := W.fs e.disk readable
    let (_, w) ← e.ws.openBuffer A clock fs fs fs p
    return { e with ws := w }
  | .close => do return { e with ws := ← e.ws.closeCurrentBuffer A }
  | .next => do return { e with ws := ← e.ws.nextBuffer A }
  | .previous => do return { e with ws := ← e.ws.previousBuffer A }
  | .updateSyntax => .ok { e with ws := e.ws.updateCurrentSyntax.2 }
  | .setSyntax y => .ok { e with ws := { e.ws with current := e.ws.current.map fun b => { b with syn := y } } }
  | .cmd c =>
    match e.ws.current with
    | none => .ok e
    | some b => do
      let buf ← Buf.exec S A b.buf c
      return { e with ws := { e.ws with current := some { b with buf := buf } } }
  | .save env =>
    match e.ws.current with
    | none => .ok e
    | some b => saveBuf W e b env
  | .saveAs p env =>
    match e.ws.current with
    | none => .ok e
    | some b => saveBuf W e { b with path := some p } env
  | .reload readable =>
    match e.ws.current with
    | none => .ok e
    | some b => do
      let (_, b) ← b.reload S A (W.fs e.disk readable)
      return { e with ws := { e.ws with current := some b } }

/-- Some steps. -/
def steps (e : Editor σ) : List (Deed σ) → R (Editor σ)
  | [] => .ok e
  | a :: as => do steps (← step S A W e a) as

end Editor
end Scribe
