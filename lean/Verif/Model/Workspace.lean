import Verif.Model.File
/-!
# Workspaces

Models src/workspace.rs.
-/
namespace Scribe

/-- A syntax set (syntect `SyntaxSet`), as far as the workspace uses it: `find_syntax_by_extension` and `find_syntax_plain_text`. -/
structure Syntaxes (σ : Type) where
  find : Text → Option σ
  plain : σ

/-- src/workspace.rs:11-18 `Workspace`. -/
structure Workspace (σ : Type) where
  path : Path
  buffers : List (FileBuf σ)
  nextId : Nat
  current : Option (FileBuf σ)
  index : Option Nat
  syntaxes : Syntaxes σ

/-- The errors of `current_buffer_tokens`, src/errors.rs:8-16. -/
inductive WErr where
  | emptyWorkspace
  | missingSyntax
  deriving DecidableEq, Repr

namespace Workspace
variable {σ : Type}

/-- src/workspace.rs:22-42 `new`. `syntaxes` is the result of building the syntax set (`none`: loading the given folder failed). -/
def new (fs : Fs) (path : Path) (syntaxes : Option (Syntaxes σ)) : Option (Workspace σ) := do
  let syntaxes ← syntaxes
  let path ← fs.canon path
  return ⟨path, [], 0, none, none, syntaxes⟩

/-- src/workspace.rs:448-454, the first half of `select_buffer`: the current buffer is swapped with what is in its place in the list. -/
def checkIn (w : Workspace σ) : R (Workspace σ) :=
  match w.current with
  | none => .ok w
  | some current =>
    match w.index with
    | none => .error .unwrap
    | some i =>
      match w.buffers[i]? with
      | none => .error .index
      | some other => .ok { w with current := some other, buffers := w.buffers.set i current }

/-- src/workspace.rs:456-465, the second half of `select_buffer`: the buffer is taken out of the list, leaving an empty one in its place. -/
def checkOut (A : Alloc) (w : Workspace σ) (index : Nat) : Bool × Workspace σ :=
  match w.buffers[index]? with
  | some target => (true, { w with buffers := w.buffers.set index (FileBuf.new A 0), current := some target, index := some index })
  | none => (false, w)

/-- src/workspace.rs:447-466 `select_buffer`. -/
def selectBuffer (A : Alloc) (w : Workspace σ) (index : Nat) : R (Bool × Workspace σ) := do
  let w ← w.checkIn
  return w.checkOut A index

/-- src/workspace.rs:431-445 `update_current_syntax`; `false` is an error. -/
def updateCurrentSyntax (w : Workspace σ) : Bool × Workspace σ :=
  match w.current with
  | none => (false, w)
  | some b =>
    let definition := ((b.fileExtension.orElse fun _ => b.fileName).bind w.syntaxes.find).orElse fun _ => some w.syntaxes.plain
    (true, { w with current := some { b with syn := definition } })

/-- `Vec::insert`. -/
def vecInsert {α : Type} (l : List α) (i : Nat) (x : α) : R (List α) :=
  if i ≤ l.length then .ok (l.insertIdx i x) else .error .index

/-- `Vec::remove`. -/
def vecRemove {α : Type} (l : List α) (i : Nat) : R (List α) :=
  if i < l.length then .ok (l.eraseIdx i) else .error .index

/-- src/workspace.rs:80-85, the end of `add_buffer`. -/
def addSyntax (w : Workspace σ) : Workspace σ :=
  match w.current with
  | some b => if b.syn.isNone then w.updateCurrentSyntax.2 else w
  | none => w

/-- src/workspace.rs:66-86 `add_buffer`. -/
def addBuffer (A : Alloc) (w : Workspace σ) (buf : FileBuf σ) : R (Workspace σ) := do
  let buf := { buf with id := some w.nextId }
  let w := { w with nextId := w.nextId + 1 }
  let target := (w.index.map (· + 1)).getD 0
  let buffers ← vecInsert w.buffers target buf
  let (_, w) ← selectBuffer A { w with buffers := buffers } target
  return w.addSyntax

/-- src/workspace.rs:468-489 `select_buffer_by_path`. -/
def selectBufferByPath (A : Alloc) (w : Workspace σ) (fs : Fs) (path : Path) : R (Bool × Workspace σ) :=
  match fs.canon path with
  | none => .ok (false, w)
  | some canonical =>
    if w.current.bind (·.path) = some canonical then .ok (true, w)
    else
      match w.buffers.findIdx? (fun b => decide (b.path = some canonical)) with
      | some index => selectBuffer A w index
      | none => .ok (false, w)

/-- src/workspace.rs:111-120 `open_buffer`; `false` is an error. The file system may change between the three accesses. -/
def openBuffer (A : Alloc) (clock : Nat) (w : Workspace σ) (atFind atRead atCanon : Fs) (path : Path) : R (Bool × Workspace σ) := do
  let (found, w) ← selectBufferByPath A w atFind path
  if found then return (true, w)
  else
    match (FileBuf.fromFile A clock atRead atCanon path : Option (FileBuf σ)) with
    | none => return (false, w)
    | some buffer =>
      let w ← addBuffer A w buffer
      return (true, w)

/-- The path relative to the workspace path if it is below it, as computed in src/workspace.rs:149-153 and 381-384. -/
def relative (w : Workspace σ) (b : FileBuf σ) : Option Path :=
  b.path.bind fun p => (p.stripPrefix w.path).orElse fun _ => some p

/-- src/workspace.rs:148-154 `current_buffer_path`. -/
def currentBufferPath (w : Workspace σ) : Option Path := w.current.bind w.relative

/-- src/workspace.rs:186-188 `current_buffer_index`. -/
def currentBufferIndex (w : Workspace σ) : Option Nat := w.index

/-- src/workspace.rs:214-226 `close_current_buffer`. -/
def closeCurrentBuffer (A : Alloc) (w : Workspace σ) : R (Workspace σ) := do
  let w := { w with current := none }
  match w.index with
  | none => return w
  | some index =>
    let buffers ← vecRemove w.buffers index
    let w := { w with buffers := buffers }
    if w.buffers.isEmpty then return { w with index := none }
    else
      let (_, w) ← selectBuffer A w (index - 1)
      return w

/-- src/workspace.rs:253-261 `previous_buffer`. -/
def previousBuffer (A : Alloc) (w : Workspace σ) : R (Workspace σ) := do
  match w.index with
  | none => return w
  | some index =>
    if index > 0 then
      let (_, w) ← selectBuffer A w (index - 1)
      return w
    else
      let last ← subU w.buffers.length 1
      let (_, w) ← selectBuffer A w last
      return w

/-- src/workspace.rs:288-296 `next_buffer`. -/
def nextBuffer (A : Alloc) (w : Workspace σ) : R (Workspace σ) := do
  match w.index with
  | none => return w
  | some index =>
    let last ← subU w.buffers.length 1
    if index = last then
      let (_, w) ← selectBuffer A w 0
      return w
    else
      let (_, w) ← selectBuffer A w (index + 1)
      return w

/-- src/workspace.rs:330-342 `current_buffer_tokens`, the arguments of `TokenSet::new`. -/
def currentBufferTokens (w : Workspace σ) : R (Except WErr (Text × σ)) :=
  match w.current with
  | none => .ok (.error .emptyWorkspace)
  | some b => do
    let data ← b.buf.data.toStr
    match b.syn with
    | none => return .error .missingSyntax
    | some syn => return .ok (data, syn)

/-- src/workspace.rs:373-387 `buffer_paths`. -/
def bufferPaths (w : Workspace σ) : List (Option Path) :=
  w.buffers.mapIdx fun i b => if w.index = some i then w.currentBufferPath else w.relative b

/-- One call on a workspace, with what the environment does meanwhile. `edit f` is any use of the public field `current_buffer` that leaves a buffer in it. -/
inductive Call (σ : Type) where
  | add (buf : FileBuf σ)
  | openPath (clock : Nat) (atFind atRead atCanon : Fs) (path : Path)
  | close
  | next
  | previous
  | edit (f : FileBuf σ → FileBuf σ)
  | updateSyntax

/-- Runs one call; the flag is `false` if it returns an error. -/
def call (A : Alloc) (w : Workspace σ) : Call σ → R (Bool × Workspace σ)
  | .add b => do return (true, ← addBuffer A w b)
  | .openPath clock f0 f1 f2 p => openBuffer A clock w f0 f1 f2 p
  | .close => do return (true, ← closeCurrentBuffer A w)
  | .next => do return (true, ← nextBuffer A w)
  | .previous => do return (true, ← previousBuffer A w)
  | .edit f => .ok (true, { w with current := w.current.map f })
  | .updateSyntax => .ok w.updateCurrentSyntax

/-- Runs a sequence of calls. -/
def calls (A : Alloc) (w : Workspace σ) : List (Call σ) → R (Workspace σ)
  | [] => .ok w
  | c :: cs => do
    let (_, w) ← call A w c
    calls A w cs

end Workspace
end Scribe
