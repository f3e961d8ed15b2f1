import Verif.Model.Rust
/-! # Texts as lists of lines -/
namespace Scribe.Spec

/-- Lines, each with its newline. -/
def asLines (ls : List Text) : Text := (ls.map (· ++ ['\n'])).flatten

/-- Lines with newlines between them. -/
def unlines (ls : List Text) : Text := ['\n'].intercalate ls

/-- The lines left after deleting from the start of line `s` to the start of line `e`: if there is no line `e`, everything from line `s` is deleted, but an
empty last line remains. -/
def deleteLines (ls : List Text) (s e : Nat) : List Text :=
  if s < ls.length then ls.take s ++ (if e < ls.length then ls.drop e else [[]]) else ls

/-- The lines from `s` up to but not including `e`. -/
def linesBetween (ls : List Text) (s e : Nat) : List Text := (ls.drop s).take (e - s)

end Scribe.Spec
