import Verif.Model.Str
import Verif.Model.Buffer
/-! # Model of `Buffer::search` -/
namespace Scribe

/-- src/buffer/mod.rs:335-336: the needle's bytes are the first bytes of the haystack; `&haystack.as_bytes()[..needle.len()]` is a slice that
could panic, were it not for the length check. -/
def startsWith (needle haystack : Text) : R Bool :=
  if blen haystack ≥ blen needle then do
    let start ← slice (enc haystack) 0 (blen needle)
    .ok (decide (enc needle = start))
  else .ok false

/-- src/buffer/mod.rs:331-340: the inner loop, over `data.char_indices()` of one line. -/
def searchLine (needle line : Text) (number : Nat) : List (Nat × Char) → R (List Position)
  | [] => .ok []
  | (offset, _) :: rest => do
    let haystack ← strFrom line offset
    let found ← startsWith needle haystack
    let more ← searchLine needle line number rest
    .ok (if found then ⟨number, offset⟩ :: more else more)

/-- src/buffer/mod.rs:330-341: the outer loop, over the lines from line `number` on. -/
def searchLines (needle : Text) (number : Nat) : List Text → R (List Position)
  | [] => .ok []
  | line :: rest => do
    let here ← searchLine needle line number (charIndices 0 line)
    let more ← searchLines needle (number + 1) rest
    .ok (here ++ more)

/-- src/buffer/mod.rs:327-344 `search`. -/
def Buf.search (b : Buf) (needle : Text) : R (List Position) := do
  searchLines needle 0 (strLines (← b.data.toStr))

end Scribe
