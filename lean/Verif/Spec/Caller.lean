import Verif.Model.Caller
import Verif.Spec.Shared
/-! # Vocabulary for arguments of the caller's own types -/
namespace Scribe.Shared
variable {ξ : Type}

/-- Both conversions return `s` and do nothing else, as those of `String`, `&str`, `Cow<str>` and `Box<str>` do. -/
def Arg.Is (a : Arg ξ) (s : Text) : Prop := ∀ w, a.asRef w = .ok (s, w) ∧ a.into w = .ok (s, w)

/-- The conversions may do anything with gap buffers, but do not panic, keep no guards and corrupt no gap buffer (as `Behaves` for callbacks). They need not return the
same string. -/
def Arg.Behaves (a : Arg ξ) : Prop :=
  ∀ w, Sound w → (∃ s w', a.asRef w = .ok (s, w') ∧ Sound w' ∧ w.cells.length ≤ w'.cells.length) ∧
    ∃ s w', a.into w = .ok (s, w') ∧ Sound w' ∧ w.cells.length ≤ w'.cells.length

/-- The same of the argument of a call. -/
def Buf.ArgCmd.Behaves : Buf.ArgCmd ξ → Prop
  | .cmd _ => True
  | .insert a => a.Behaves
  | .replace a => a.Behaves

/-- An argument that says one string when looked at and another one when converted. -/
def Arg.two (said given : Text) : Arg ξ := ⟨fun w => .ok (said, w), fun w => .ok (given, w)⟩

/-- Putting a string into cell 0 at the start, when there is such a cell. -/
def putFirst (S : Segmenter) (A : Alloc) (x : Text) (w : World ξ) : R (World ξ) :=
  if 0 < w.cells.length then withWrite w 0 fun g w => do return (← g.insert S A x ⟨0, 0⟩, w) else .ok w

/-- An argument whose conversions put `x` and `y` there. -/
def Arg.edits (S : Segmenter) (A : Alloc) (x y said given : Text) : Arg ξ :=
  ⟨fun w => do .ok (said, ← putFirst S A x w), fun w => do .ok (given, ← putFirst S A y w)⟩

end Scribe.Shared
