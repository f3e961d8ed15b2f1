import Verif.Spec.Calls
import Verif.Spec.Ordinary
/-!
# Typing and erasing

What an editor does with a buffer while its user types: small programs that use only the public API.
-/
namespace Scribe.Spec
open Buf (Cmd)

/-- A key for the cluster `c`: it is inserted and the cursor steps over it. -/
def key (c : Text) : List Cmd :=
  if c = ['\n'] then [.insert c, .move .down, .move .startOfLine] else [.insert c, .move .right]

/-- Typing a text, one cluster after the other. -/
def typeText (segs : Text → List Text) (s : Text) : List Cmd := (segs s).flatMap key

/-- The backspace key with the cursor at `p`: step back, to the end of the line above from the start of a line, and delete. -/
def backspace (p : Position) : List Cmd :=
  if p.offset = 0 then [.move .up, .move .endOfLine, .delete] else [.move .left, .delete]

/-- The backspace key `n` times. -/
def backspaces (S : Segmenter) (A : Alloc) (b : Buf) : Nat → R Buf
  | 0 => .ok b
  | n + 1 => do
    let b ← Buf.execAll S A b (backspace b.cursor.position)
    backspaces S A b n

end Scribe.Spec
