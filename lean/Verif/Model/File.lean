import Verif.Model.Buffer
/-!
# Buffers and files

Models the parts of src/buffer/mod.rs that deal with paths and files: `from_file`, `save`, `reload`, `file_name`,
`file_extension`, and the file system as far as they use it.
-/
namespace Scribe

/-! ## Paths (std::path, Unix) -/

/-- A component of a path (`std::path::Component` on Unix). -/
inductive Comp where
  | root
  | cur
  | parent
  | normal (name : Bytes)
  deriving DecidableEq, Repr

/-- A path; Rust compares paths by their components. The empty path is `[]`. -/
abbrev Path := List Comp

namespace Path

/-- `Path::strip_prefix`. -/
def stripPrefix : Path → Path → Option Path
  | p, [] => some p
  | [], _ :: _ => none
  | c :: p, d :: q => if c = d then stripPrefix p q else none

/-- `Path::file_name`: the last component, if it is a normal one. -/
def fileName (p : Path) : Option Bytes :=
  match p.getLast? with
  | some (.normal name) => some name
  | _ => none

/-- Splits at the last `.`: what is before it (if there is one) and after it (`rsplitn(2, '.')` of std). -/
def splitDot (name : Bytes) : Option Bytes × Bytes :=
  let after := (name.reverse.takeWhile (· != 46)).reverse
  if after.length = name.length then (none, name) else (some (name.take (name.length - after.length - 1)), after)

/-- `Path::extension` (std `rsplit_file_at_dot`). A normal component is never `..`. -/
def extension (p : Path) : Option Bytes :=
  match fileName p with
  | some name =>
    match splitDot name with
    | (none, _) => none
    | (some before, after) => if before.isEmpty then none else some after
  | none => none

end Path

/-! ## Reading -/

/-- The file system at one moment, as far as reading goes: `read` is `fs::read(path)`, `canon` is `Path::canonicalize` (`none`: an error). -/
structure Fs where
  read : Path → Option Bytes
  canon : Path → Option Path

/-- `fs::read_to_string(path)`: fails if the file cannot be read or is not valid UTF-8. -/
def Fs.readToString (fs : Fs) (p : Path) : Option Text := (fs.read p).bind strict

/-! ## Writing -/

/-- The contents of all files of the file system, by an identity of the file (inode). -/
abbrev Disk := Nat → Option Bytes

/-- Result of one `write` system call. -/
inductive WriteRes where
  | wrote (n : Nat)
  | interrupted
  | failed
  deriving DecidableEq, Repr

/-- How the operating system reacts to one `save`: the file that `File::create` opens (`none`: an error) and the results of the `write` calls.
The process crashes when it makes a call for which there is no result. -/
structure SaveEnv where
  create : Option (Option Nat)
  writes : List WriteRes
  deriving DecidableEq, Repr

/-- How a `save` ends. -/
inductive Ending where
  | ok
  | err
  | crash
  deriving DecidableEq, Repr

/-- `write_all` of std: writes until everything is written. Returns the states of the disk after each step, oldest first. `wrote n` writes the
next `n` bytes (at most all of them) at the end of the file; nobody else is assumed to write to the same file. -/
def writeAll (file : Nat) : List WriteRes → Disk → Bytes → List Disk × Ending
  | [], _, bs => ([], if bs.isEmpty then .ok else .crash)
  | res :: rs, disk, bs =>
    if bs.isEmpty then ([], .ok)
    else
      match res with
      | .failed => ([], .err)
      | .interrupted => writeAll file rs disk bs
      | .wrote 0 => ([], .err)
      | .wrote (n + 1) =>
        let disk' : Disk := fun f => if f = file then some ((disk file).getD [] ++ bs.take (n + 1)) else disk f
        let r := writeAll file rs disk' (bs.drop (n + 1))
        (disk' :: r.1, r.2)

/-! ## Buffers with paths -/

/-- src/buffer/mod.rs:47-56 `Buffer`: the fields of `Buf`, and `id`, `path`, `syntax_definition`. -/
structure FileBuf (σ : Type) where
  buf : Buf
  id : Option Nat
  path : Option Path
  syn : Option σ

namespace FileBuf
variable {σ : Type}

/-- src/buffer/mod.rs:58-77,91-93 `Buffer::new`. -/
def new (A : Alloc) (clock : Nat) : FileBuf σ := ⟨Buf.new A clock, none, none, none⟩

/-- src/buffer/mod.rs:113-137 `from_file`. The file is read in the file system `atRead`, its path made canonical in `atCanon`, a little later. -/
def fromFile (A : Alloc) (clock : Nat) (atRead atCanon : Fs) (path : Path) : Option (FileBuf σ) := do
  let content ← atRead.readToString path
  let canonical ← atCanon.canon path
  return ⟨Buf.fromContent A clock content, none, some canonical, none⟩

/-- src/buffer/mod.rs:180-196 `save`: the disk after each step (oldest first, without the initial one), the ending, the buffer. `File::create` of an
empty path fails; otherwise it truncates or creates the file. -/
def save (b : FileBuf σ) (env : SaveEnv) (disk : Disk) : R (List Disk × Ending × FileBuf σ) := do
  match b.path.getD [], env.create with
  | _, none => .ok ([], .crash, b)
  | [], some _ => .ok ([], .err, b)
  | _ :: _, some none => .ok ([], .err, b)
  | _ :: _, some (some file) =>
    let disk' : Disk := fun f => if f = file then some [] else disk f
    let text ← b.buf.data.toStr
    let r := writeAll file env.writes disk' (enc text)
    match r.2 with
    | .ok => .ok (disk' :: r.1, .ok, { b with buf := b.buf.setMark })
    | e => .ok (disk' :: r.1, e, b)

/-- src/buffer/mod.rs:413-425 `reload`: `false` is an error (no path, or the file cannot be read). -/
def reload (S : Segmenter) (A : Alloc) (b : FileBuf σ) (fs : Fs) : R (Bool × FileBuf σ) := do
  match b.path with
  | none => .ok (false, b)
  | some path =>
    match fs.readToString path with
    | none => .ok (false, b)
    | some content => do
      let buf ← Buf.reloadWith S A b.buf content
      .ok (true, { b with buf := buf })

/-- src/buffer/mod.rs:211-216 `file_name`. -/
def fileName (b : FileBuf σ) : Option Text := b.path.bind fun p => p.fileName.bind strict

/-- src/buffer/mod.rs:446-456 `file_extension`. -/
def fileExtension (b : FileBuf σ) : Option Text :=
  b.path.bind fun p => p.extension.bind fun e => if e.isEmpty then none else some (lossy e)

end FileBuf
end Scribe
