import Verif.Model.File
/-!
# Saves at the same time

`FileBuf.save` with the system calls of other saves in between: each save is a call of `Buffer::save` (src/buffer/mod.rs:180-196) in a program of its own, as a
program can do nothing else with the buffer meanwhile. Every save writes through its own file handle.
-/
namespace Scribe
variable {σ : Type}

/-- `pwrite(2)`: `new` at `offset`. What is skipped beyond the end is filled with zeros. -/
def writeAt (old : Bytes) (offset : Nat) (new : Bytes) : Bytes :=
  old.take offset ++ List.replicate (offset - old.length) 0 ++ new ++ old.drop (offset + new.length)

/-- How far a save is. `writing`: in `write_all`, with a handle of `file` at `offset`; `left` has not been written. -/
inductive Stage where
  | before
  | writing (file offset : Nat) (left : Bytes)
  | ended (e : Ending)
  deriving DecidableEq, Repr

/-- The disk and any number of saves. -/
structure Savers (σ : Type) where
  disk : Disk
  bufs : Nat → FileBuf σ
  stage : Nat → Stage

/-- What happens: save `who` is called, and `File::create` opens that file or fails; or the next `write` call of save `who` returns. -/
inductive Tick where
  | create (who : Nat) (file : Option Nat)
  | write (who : Nat) (r : WriteRes)
  deriving DecidableEq, Repr

namespace Savers

def setStage (s : Savers σ) (who : Nat) (x : Stage) : Savers σ := { s with stage := fun i => if i = who then x else s.stage i }

/-- The rest of `save` when the bytes `left` are still to be written: the loop of `write_all` ends when there are none, and
`self.history.mark()` follows (src/buffer/mod.rs:189-195). -/
def proceed (s : Savers σ) (who file offset : Nat) (left : Bytes) : Savers σ :=
  if left.isEmpty then
    { s.setStage who (.ended .ok) with bufs := fun i => if i = who then { s.bufs i with buf := (s.bufs i).buf.setMark } else s.bufs i }
  else s.setStage who (.writing file offset left)

/-- One system call: src/buffer/mod.rs:180-189 and std's `write_all`, as in `FileBuf.save` and `writeAll`. Calls that a save does not make are ignored. -/
def step (s : Savers σ) : Tick → R (Savers σ)
  | .create who file =>
    match s.stage who with
    | .before =>
      match (s.bufs who).path.getD [], file with
      | [], _ => .ok (s.setStage who (.ended .err))
      | _ :: _, none => .ok (s.setStage who (.ended .err))
      | _ :: _, some file => do
        let text ← (s.bufs who).buf.data.toStr
        return { s with disk := fun f => if f = file then some [] else s.disk f }.proceed who file 0 (enc text)
    | _ => .ok s
  | .write who r =>
    match s.stage who with
    | .writing file offset left =>
      match r with
      | .failed => .ok (s.setStage who (.ended .err))
      | .interrupted => .ok s
      | .wrote 0 => .ok (s.setStage who (.ended .err))
      | .wrote (n + 1) =>
        let new := left.take (n + 1)
        .ok ({ s with disk := fun f => if f = file then some (writeAt ((s.disk file).getD []) offset new) else s.disk f }.proceed who file
          (offset + new.length) (left.drop (n + 1)))
    | _ => .ok s

def steps (s : Savers σ) : List Tick → R (Savers σ)
  | [] => .ok s
  | t :: ts => do steps (← s.step t) ts

end Savers
end Scribe
