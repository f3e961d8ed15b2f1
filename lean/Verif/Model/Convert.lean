import Verif.Model.Unwind
/-!
# Conversions that panic

`Buffer::insert` takes any `T: Into<String>` and `Buffer::replace` any `T: Into<String> + AsRef<str>`. These conversions may panic too, and the caller may catch that, as
in `Verif/Model/Unwind.lean`. (`Verif/Model/Caller.lean` has conversions that edit, and no unwinding.)
-/
namespace Scribe.Unwind
open Scribe (Buf SOp)
open Scribe.Buf (Cmd)

/-- What `as_ref()` and `into()` of an argument return; `none`: they panic. -/
structure Conv where
  asRef : Option Text
  into : Option Text
  deriving DecidableEq, Repr

variable (S : Segmenter) (A : Alloc) (fate : Fate)

/-- src/buffer/operation/insert.rs:97-108 `insert`: `data.into()` is evaluated first (line 99). -/
def insertConv (b : Buf) (v : Conv) : R (Out Buf) :=
  match v.into with
  | none => .ok (.unwound b)
  | some s => edit S A fate b (.insert s b.cursor.position)

/-- src/buffer/operation/replace.rs:76-93 `replace`: the contents are read (line 77), `as_ref()` is compared with them (line 80), and only if they differ `into()` is evaluated
(line 85). -/
def replaceConv (b : Buf) (v : Conv) : R (Out Buf) := do
  let old ← b.data.toStr
  match v.asRef with
  | none => return .unwound b
  | some s =>
    if s = old then return .done b
    else
      let old ← b.data.toStr
      match v.into with
      | none => return .unwound b
      | some s => edit S A fate b (.replace old s)

/-- The calls of the other models, and these two. -/
inductive ConvCmd where
  | cmd (c : Cmd)
  | insert (v : Conv)
  | replace (v : Conv)
  deriving DecidableEq, Repr

/-- One call. -/
def execConv (b : Buf) : ConvCmd → R (Out Buf)
  | .cmd c => exec S A fate b c
  | .insert v => insertConv S A fate b v
  | .replace v => replaceConv S A fate b v

/-- A program that catches the panics of its callback and of its conversions and goes on. -/
def sessionConv (b : Buf) : List ConvCmd → R Buf
  | [] => .ok b
  | c :: cs => do
    match ← execConv S A fate b c with
    | .done b => sessionConv b cs
    | .unwound b => sessionConv b cs

end Scribe.Unwind
