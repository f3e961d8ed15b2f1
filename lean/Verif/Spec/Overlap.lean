import Verif.Model.Overlap
import Verif.Spec.File
/-! # Saves at the same time, in terms of who wrote which byte -/
namespace Scribe.Spec
variable {σ : Type}

/-- A file since it was last truncated: its size, and which save wrote the byte at an offset last, if any did. -/
structure Sheaf where
  size : Nat
  author : Nat → Option Nat

/-- How far a save is: it has written `count` bytes of its text to `file` and goes on, or has ended. -/
inductive Progress where
  | before
  | writing (file count : Nat)
  | ended (e : Ending)
  deriving DecidableEq, Repr

/-- The files that were truncated, and the saves. -/
structure Scribes where
  sheaf : Nat → Option Sheaf
  progress : Nat → Progress

namespace Scribes
variable (texts : Nat → Bytes) (named : Nat → Prop) [DecidablePred named]

def set (s : Scribes) (who : Nat) (p : Progress) : Scribes := { s with progress := fun i => if i = who then p else s.progress i }

/-- The save has written `count` bytes. -/
def reach (s : Scribes) (who file count : Nat) : Scribes :=
  s.set who (if count = (texts who).length then .ended .ok else .writing file count)

/-- A save that is called truncates the file, if the buffer has a path and the file can be opened. A `write` call writes the next bytes of the text at
the place where they are in the text. -/
def step (s : Scribes) : Tick → Scribes
  | .create who file =>
    match s.progress who with
    | .before =>
      match (if named who then file else none) with
      | none => s.set who (.ended .err)
      | some n => { s with sheaf := fun f => if f = n then some ⟨0, fun _ => none⟩ else s.sheaf f }.reach texts who n 0
    | _ => s
  | .write who r =>
    match s.progress who with
    | .writing n count =>
      match r with
      | .interrupted => s
      | .wrote (k + 1) =>
        let upTo := min (count + (k + 1)) (texts who).length
        let put (x : Sheaf) : Sheaf := ⟨max x.size upTo, fun j => if count ≤ j ∧ j < upTo then some who else x.author j⟩
        { s with sheaf := fun f => if f = n then (s.sheaf n).map put else s.sheaf f }.reach texts who n upTo
      | _ => s.set who (.ended .err)
    | _ => s

def steps (s : Scribes) : List Tick → Scribes
  | [] => s
  | t :: ts => steps (s.step texts named t) ts

/-- Nothing has happened. -/
def start : Scribes := ⟨fun _ => none, fun _ => .before⟩

/-- The bytes of a file: those of the texts of the authors, zero where there is none. -/
def bytes (x : Sheaf) : Bytes := (List.range x.size).map fun j => ((x.author j).bind fun i => (texts i)[j]?).getD 0

end Scribes
end Scribe.Spec
