import Verif.Model.Session
import Verif.Model.Token
/-!
# Which error

The functions of `Verif/Model/File.lean` and `Verif/Model/Workspace.lean` that can fail, with the error they return (src/errors.rs), and
`TokenSet`. The file system says which error an access gives.
-/
namespace Scribe

/-- `std::io::ErrorKind`, as far as scribe or std chooses it; `os` is any other error of the operating system. -/
inductive IoErr where
  | notFound
  | invalidData
  | writeZero
  | os (code : Nat)
  deriving DecidableEq, Repr

/-- src/errors.rs:2-26 `ErrorKind`. `ε` are the errors of the highlighter (`ParsingError` and `ScopeError`). -/
inductive ErrKind (ε : Type) where
  | emptyWorkspace
  | missingPath
  | missingScope
  | missingSyntax
  | io (e : IoErr)
  | highlighter (e : ε)
  | syntaxLoading
  deriving DecidableEq, Repr

/-- The file system at one moment, with its errors. -/
structure FsE where
  read : Path → Except IoErr Bytes
  canon : Path → Except IoErr Path

/-- `fs::read_to_string`: a file that is not UTF-8 gives `InvalidData`. -/
def FsE.readToString (fs : FsE) (p : Path) : Except IoErr Text :=
  match fs.read p with
  | .error e => .error e
  | .ok bs =>
    match strict bs with
    | none => .error .invalidData
    | some t => .ok t

/-- The file system without its errors. -/
def FsE.plain (fs : FsE) : Fs := ⟨fun p => (fs.read p).toOption, fun p => (fs.canon p).toOption⟩

/-- Result of one `write` system call, with the error. -/
inductive WriteResE where
  | wrote (n : Nat)
  | interrupted
  | failed (e : IoErr)
  deriving DecidableEq, Repr

def WriteResE.plain : WriteResE → WriteRes
  | .wrote n => .wrote n
  | .interrupted => .interrupted
  | .failed _ => .failed

/-- As `SaveEnv`, with errors. -/
structure SaveEnvE where
  create : Option (Except IoErr Nat)
  writes : List WriteResE

def SaveEnvE.plain (env : SaveEnvE) : SaveEnv := ⟨env.create.map Except.toOption, env.writes.map WriteResE.plain⟩

/-- How a `save` ends, with the error. -/
inductive EndingE where
  | ok
  | err (e : IoErr)
  | crash
  deriving DecidableEq, Repr

def EndingE.plain : EndingE → Ending
  | .ok => .ok
  | .err _ => .err
  | .crash => .crash

/-- `write_all` of std; `Ok(0)` gives `WriteZero`. -/
def writeAllE (file : Nat) : List WriteResE → Disk → Bytes → List Disk × EndingE
  | [], _, bs => ([], if bs.isEmpty then .ok else .crash)
  | res :: rs, disk, bs =>
    if bs.isEmpty then ([], .ok)
    else
      match res with
      | .failed e => ([], .err e)
      | .interrupted => writeAllE file rs disk bs
      | .wrote 0 => ([], .err .writeZero)
      | .wrote (n + 1) =>
        let disk' : Disk := fun f => if f = file then some ((disk file).getD [] ++ bs.take (n + 1)) else disk f
        let r := writeAllE file rs disk' (bs.drop (n + 1))
        (disk' :: r.1, r.2)

namespace FileBuf
variable {σ : Type} {ε : Type}

/-- src/buffer/mod.rs:113-137 `from_file`. -/
def fromFileE (A : Alloc) (clock : Nat) (atRead atCanon : FsE) (path : Path) : Except IoErr (FileBuf σ) := do
  let content ← atRead.readToString path
  let canonical ← atCanon.canon path
  return ⟨Buf.fromContent A clock content, none, some canonical, none⟩

/-- src/buffer/mod.rs:180-196 `save`. `File::create("")` gives `NotFound`. -/
def saveE (b : FileBuf σ) (env : SaveEnvE) (disk : Disk) : R (List Disk × EndingE × FileBuf σ) := do
  match b.path.getD [], env.create with
  | _, none => .ok ([], .crash, b)
  | [], some _ => .ok ([], .err .notFound, b)
  | _ :: _, some (.error e) => .ok ([], .err e, b)
  | _ :: _, some (.ok file) =>
    let disk' : Disk := fun f => if f = file then some [] else disk f
    let text ← b.buf.data.toStr
    let r := writeAllE file env.writes disk' (enc text)
    match r.2 with
    | .ok => .ok (disk' :: r.1, .ok, { b with buf := b.buf.setMark })
    | e => .ok (disk' :: r.1, e, b)

/-- src/buffer/mod.rs:413-425 `reload`. -/
def reloadE (S : Segmenter) (A : Alloc) (b : FileBuf σ) (fs : FsE) : R (Except (ErrKind ε) Unit × FileBuf σ) := do
  match b.path with
  | none => .ok (.error .missingPath, b)
  | some path =>
    match fs.readToString path with
    | .error e => .ok (.error (.io e), b)
    | .ok content => do
      let buf ← Buf.reloadWith S A b.buf content
      .ok (.ok (), { b with buf := buf })

end FileBuf

namespace Workspace
variable {σ : Type} {ε : Type}

/-- src/workspace.rs:22-42 `new`. -/
def newE (fs : FsE) (path : Path) (syntaxes : Option (Syntaxes σ)) : Except (ErrKind ε) (Workspace σ) :=
  match syntaxes with
  | none => .error .syntaxLoading
  | some syntaxes =>
    match fs.canon path with
    | .error e => .error (.io e)
    | .ok path => .ok ⟨path, [], 0, none, none, syntaxes⟩

/-- src/workspace.rs:431-445 `update_current_syntax`. -/
def updateCurrentSyntaxE (w : Workspace σ) : Except (ErrKind ε) Unit × Workspace σ :=
  match w.current with
  | none => (.error .emptyWorkspace, w)
  | some b =>
    let definition := ((b.fileExtension.orElse fun _ => b.fileName).bind w.syntaxes.find).orElse fun _ => some w.syntaxes.plain
    (.ok (), { w with current := some { b with syn := definition } })

/-- src/workspace.rs:111-120 `open_buffer`. -/
def openBufferE (A : Alloc) (clock : Nat) (w : Workspace σ) (atFind atRead atCanon : FsE) (path : Path) : R (Except (ErrKind ε) Unit × Workspace σ) := do
  let (found, w) ← selectBufferByPath A w atFind.plain path
  if found then return (.ok (), w)
  else
    match (FileBuf.fromFileE A clock atRead atCanon path : Except IoErr (FileBuf σ)) with
    | .error e => return (.error (.io e), w)
    | .ok buffer =>
      let w ← addBuffer A w buffer
      return (.ok (), w)

/-- src/workspace.rs:330-342 `current_buffer_tokens`, and src/buffer/token/token_set.rs:20-22 `iter` of the result. `H` is the highlighter for
a syntax definition. -/
def currentBufferIter (H : σ → Highlighter) (w : Workspace σ) : R (Except (ErrKind (Σ y, (H y).Err)) (Σ y, TokenIter (H y))) := do
  match w.current with
  | none => .ok (.error .emptyWorkspace)
  | some b => do
    let data ← b.buf.data.toStr
    match b.syn with
    | none => .ok (.error .missingSyntax)
    | some y =>
      match ← TokenIter.new (H y) data with
      | .error e => .ok (.error (.highlighter ⟨y, e⟩))
      | .ok it => .ok (.ok ⟨y, it⟩)

end Workspace
end Scribe
