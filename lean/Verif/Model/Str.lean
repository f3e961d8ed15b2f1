import Verif.Model.Rust
/-!
# Slicing of `&str` by byte offsets

Used by `Buffer::search`, `LineIterator` and `TokenIterator`, which work with byte offsets.
-/
namespace Scribe

/-- `s.split_at(i)`: panics unless byte offset `i` is a character boundary of `s` (std `str` indexing). -/
def strSplit : Text → Nat → R (Text × Text)
  | t, 0 => .ok ([], t)
  | [], _ + 1 => .error .slice
  | c :: t, n + 1 =>
    if c.utf8Size ≤ n + 1 then do
      let (a, b) ← strSplit t (n + 1 - c.utf8Size)
      .ok (c :: a, b)
    else .error .slice

/-- `&s[i..]` (std `str` indexing). -/
def strFrom (t : Text) (i : Nat) : R Text := do
  let (_, b) ← strSplit t i
  .ok b

/-- `&s[i..j]` (std `str` indexing): panics unless `i ≤ j` and both are character boundaries. -/
def strSlice (t : Text) (i j : Nat) : R Text := do
  let (a, _) ← strSplit t j
  strFrom a i

/-- `s.char_indices()` collected, starting at byte offset `n`. -/
def charIndices (n : Nat) : Text → List (Nat × Char)
  | [] => []
  | c :: t => (n, c) :: charIndices (n + c.utf8Size) t

end Scribe
