import Verif.Model.Workspace
/-!
# A program using a workspace

Puts the parts together: what an editor does with a `Workspace` and, through the public field `current_buffer`, with the buffer in it.
-/
namespace Scribe

/-- One action of a program. `add`: a buffer that the program has made (`Buffer::new`, or with a content as `from_file` makes it), used by any calls
and given any public fields before it is added. `cmd`: a call on `workspace.current_buffer`, if there is one. -/
inductive Act (σ : Type) where
  | add (clock : Nat) (content : Option Text) (cs : List Buf.Cmd) (id : Option Nat) (path : Option Path) (syn : Option σ)
  | openPath (clock : Nat) (atFind atRead atCanon : Fs) (path : Path)
  | close
  | next
  | previous
  | updateSyntax
  | cmd (c : Buf.Cmd)
  | setPath (path : Option Path)
  | setSyntax (syn : Option σ)

namespace Workspace
variable {σ : Type} (S : Segmenter) (A : Alloc)

/-- src/buffer/mod.rs:58-77 and 113-137. -/
def startBuf (clock : Nat) : Option Text → Buf
  | some t => Buf.fromContent A clock t
  | none => Buf.new A clock

/-- Performs one action; the flag is `false` if it returns an error. -/
def act (w : Workspace σ) : Act σ → R (Bool × Workspace σ)
  | .add clock content cs id path syn => do
    let b ← Buf.execAll S A (startBuf A clock content) cs
    return (true, ← addBuffer A w ⟨b, id, path, syn⟩)
  | .openPath clock f0 f1 f2 p => openBuffer A clock w f0 f1 f2 p
  | .close => do return (true, ← closeCurrentBuffer A w)
  | .next => do return (true, ← nextBuffer A w)
  | .previous => do return (true, ← previousBuffer A w)
  | .updateSyntax => .ok w.updateCurrentSyntax
  | .cmd c =>
    match w.current with
    | none => .ok (true, w)
    | some b => do
      let buf ← Buf.exec S A b.buf c
      return (true, { w with current := some { b with buf := buf } })
  | .setPath p => .ok (true, { w with current := w.current.map fun b => { b with path := p } })
  | .setSyntax y => .ok (true, { w with current := w.current.map fun b => { b with syn := y } })

/-- Performs some actions; the flags of all. -/
def acts (w : Workspace σ) : List (Act σ) → R (List Bool × Workspace σ)
  | [] => .ok ([], w)
  | a :: as => do
    let (r, w) ← act S A w a
    let (rs, w) ← acts w as
    return (r :: rs, w)

end Workspace
end Scribe
