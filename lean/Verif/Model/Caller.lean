import Verif.Model.Shared
/-!
# Arguments of the caller's own types

`Buffer::insert` takes any `T: Into<String>` and `Buffer::replace` any `T: Into<String> + AsRef<str>` (src/buffer/operation/insert.rs:97,
src/buffer/operation/replace.rs:76). The conversions are code of the caller that runs in the middle of these functions. It cannot reach the buffer, which is
mutably borrowed, but it may hold pointers to its gap buffer (`Cursor::data` is public). The other models take the string itself.
-/
namespace Scribe.Shared
variable {ξ : Type}

/-- A value of such a type: what `as_ref()` and `into()` return, what they do, and whether they panic. -/
structure Arg (ξ : Type) where
  asRef : World ξ → R (Text × World ξ)
  into : World ξ → R (Text × World ξ)

namespace Buf
variable (S : Segmenter) (A : Alloc)

/-- src/buffer/operation/insert.rs:97-108 `insert`: `data.into()` is evaluated first (line 99). -/
def insertArg (w : World ξ) (b : Buf ξ) (a : Arg ξ) : R (Buf ξ × World ξ) := do
  let (s, w) ← a.into w
  let (b, op, w) ← runOp S A w b (.insert s b.cursor.at_.position)
  .ok (b.store op, w)

/-- src/buffer/operation/replace.rs:76-93 `replace`: the contents are read (line 77), then `as_ref()` is compared with them (line 80); then the contents are read
again and after that `into()` is evaluated (line 85). -/
def replaceArg (w : World ξ) (b : Buf ξ) (a : Arg ξ) : R (Buf ξ × World ξ) := do
  let (old, w) ← text w b
  let (s, w) ← a.asRef w
  if s = old then .ok (b, w)
  else
    let (old, w) ← text w b
    let (s, w) ← a.into w
    let (b, op, w) ← runOp S A w b (.replace old s)
    .ok (b.store op, w)

/-- The calls of the other models, and these two. -/
inductive ArgCmd (ξ : Type) where
  | cmd (c : Scribe.Buf.Cmd)
  | insert (a : Arg ξ)
  | replace (a : Arg ξ)

/-- One call. -/
def execArg (f : Callback ξ) (w : World ξ) (b : Buf ξ) : ArgCmd ξ → R (Buf ξ × World ξ)
  | .cmd c => exec S A f w b c
  | .insert a => insertArg S A w b a
  | .replace a => replaceArg S A w b a

/-- A sequence of calls. -/
def execArgs (f : Callback ξ) (w : World ξ) (b : Buf ξ) : List (ArgCmd ξ) → R (Buf ξ × World ξ)
  | [] => .ok (b, w)
  | c :: cs => do
    let (b, w) ← execArg S A f w b c
    execArgs f w b cs

end Buf
end Scribe.Shared
