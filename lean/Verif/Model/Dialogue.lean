import Verif.Model.Editor
import Verif.Model.Search
/-!
# What a program is told

As `Verif/Model/Editor.lean`, with the values that the calls return, and with calls that only ask.
-/
namespace Scribe
variable {σ : Type}

/-- A question about `workspace.current_buffer` (up to `extension`; `inBounds` through the public `cursor.data`) or about the workspace. -/
inductive Ask where
  | data
  | read (p q : Position)
  | search (needle : Text)
  | lineCount
  | modified
  | cursor
  | inBounds (p : Position)
  | id
  | path
  | name
  | extension
  | index
  | currentPath
  | paths
  | tokens
  deriving DecidableEq, Repr

/-- What the program does: something, or it asks. -/
inductive Line (σ : Type) where
  | deed (a : Deed σ)
  | ask (q : Ask)

/-- What it is told. `nobody`: there is no current buffer. -/
inductive Reply (σ : Type) where
  | nobody
  | done
  | flag (b : Bool)
  | ended (e : Ending)
  | text (t : Text)
  | maybeText (t : Option Text)
  | places (ps : List Position)
  | number (n : Nat)
  | maybeNumber (n : Option Nat)
  | place (p : Position)
  | maybePath (p : Option Path)
  | maybePaths (ps : List (Option Path))
  | noTokens (e : WErr)
  | tokens (t : Text) (syn : σ)
  deriving DecidableEq

namespace Editor
variable (S : Segmenter) (A : Alloc) (W : FileTree)

/-- A question to the current buffer. -/
def askBuf (e : Editor σ) (f : FileBuf σ → R (Reply σ)) : R (Reply σ) :=
  match e.ws.current with
  | none => .ok .nobody
  | some b => f b

/-- The answers: src/buffer/mod.rs:150-152 `data`, 303-305 `read`, 327-344 `search`, 388-390 `line_count`, 372-374 `modified`, the public fields `cursor`,
`id` and `path` (47-56), 211-216 `file_name`, 446-456 `file_extension`; src/workspace.rs:186-188 `current_buffer_index`, 148-154 `current_buffer_path`, 373-387 `buffer_paths`,
330-342 `current_buffer_tokens` (what is handed to the highlighter). -/
def reply (e : Editor σ) : Ask → R (Reply σ)
  | .data => e.askBuf fun b => do return .text (← b.buf.data.toStr)
  | .read p q => e.askBuf fun b => do return .maybeText (← b.buf.data.read S (Range.new p q))
  | .search needle => e.askBuf fun b => do return .places (← b.buf.search needle)
  | .lineCount => e.askBuf fun b => do return .number (← b.buf.lineCount)
  | .modified => e.askBuf fun b => .ok (.flag b.buf.modified)
  | .cursor => e.askBuf fun b => .ok (.place b.buf.cursor.position)
  | .inBounds p => e.askBuf fun b => do return .flag (← b.buf.data.inBounds S p)
  | .id => e.askBuf fun b => .ok (.maybeNumber b.id)
  | .path => e.askBuf fun b => .ok (.maybePath b.path)
  | .name => e.askBuf fun b => .ok (.maybeText b.fileName)
  | .extension => e.askBuf fun b => .ok (.maybeText b.fileExtension)
  | .index => .ok (.maybeNumber e.ws.currentBufferIndex)
  | .currentPath => .ok (.maybePath e.ws.currentBufferPath)
  | .paths => .ok (.maybePaths e.ws.bufferPaths)
  | .tokens => do
    match ← e.ws.currentBufferTokens with
    | .error x => return .noTokens x
    | .ok (t, y) => return .tokens t y

/-- What a call returns: success or an error for `open_buffer`, `update_current_syntax`, `save` and `reload`, a truth value for `move_to`
(src/buffer/cursor.rs:65-76), and nothing for the others. The effect of the call is `Editor.step`. -/
def result (e : Editor σ) : Deed σ → R (Reply σ)
  | .openPath clock readable p => do
    let fs := W.fs e.disk readable
    return .flag (← e.ws.openBuffer A clock fs fs fs p).1
  | .updateSyntax => .ok (.flag e.ws.updateCurrentSyntax.1)
  | .cmd (.move (.to p)) => e.askBuf fun b => do return .flag (← Cursor.moveTo S b.buf.data b.buf.cursor p).1
  | .cmd _ => e.askBuf fun _ => .ok .done
  | .save env => e.askBuf fun b => do return .ended (← b.save (W.env b.path env) e.disk).2.1
  | .saveAs p env => e.askBuf fun b => do return .ended (← { b with path := some p }.save (W.env (some p) env) e.disk).2.1
  | .reload readable => e.askBuf fun b => do return .flag (← b.reload S A (W.fs e.disk readable)).1
  | .setSyntax _ => e.askBuf fun _ => .ok .done
  | .fresh _ | .close | .next | .previous => .ok .done

/-- A whole conversation: what the program does and asks, what it is told, and where that leads. -/
def talk (e : Editor σ) : List (Line σ) → R (List (Reply σ) × Editor σ)
  | [] => .ok ([], e)
  | .deed a :: ls => do
    let r ← e.result S A W a
    let e ← e.step S A W a
    let (rs, e) ← talk e ls
    return (r :: rs, e)
  | .ask q :: ls => do
    let r ← e.reply S q
    let (rs, e) ← talk e ls
    return (r :: rs, e)

end Editor
end Scribe
