import Verif.Model.Str
/-! # Model of src/util/line_iterator.rs -/
namespace Scribe

/-- src/util/line_iterator.rs:1-7 `LineIterator`. -/
structure LineIter where
  data : Text
  lineNumber : Nat
  lineStart : Nat
  lineEnd : Nat
  done : Bool
  deriving DecidableEq

namespace LineIter

/-- src/util/line_iterator.rs:10-18 `new`. -/
def new (data : Text) : LineIter := ⟨data, 0, 0, 0, false⟩

/-- src/util/line_iterator.rs:20-22 `out_of_data`. -/
def outOfData (it : LineIter) : Bool := it.lineEnd == blen it.data

/-- src/util/line_iterator.rs:41-49: the loop over the characters; returns the new `line_end` and `trailing_newline`. -/
def scan : Text → Nat → Nat × Bool
  | [], e => (e, false)
  | c :: cs, e => if c = '\n' then (e + c.utf8Size, true) else scan cs (e + c.utf8Size)

/-- src/util/line_iterator.rs:28-62 `next`. -/
def next (it : LineIter) : R (Option (Nat × Text) × LineIter) :=
  if it.done then .ok (none, it) else do
    let rest ← strFrom it.data it.lineEnd
    let (lineEnd, trailing) := scan rest it.lineEnd
    let it' : LineIter := { it with lineStart := it.lineEnd, lineEnd := lineEnd }
    let line ← strSlice it'.data it'.lineStart it'.lineEnd
    if it'.outOfData && !trailing then .ok (some (it'.lineNumber, line), { it' with done := true })
    else .ok (some (it'.lineNumber, line), { it' with lineNumber := it'.lineNumber + 1 })

/-- The results of `n` calls of `next`. -/
def run : Nat → LineIter → R (List (Option (Nat × Text)))
  | 0, _ => .ok []
  | n + 1, it => do
    let (x, it') ← it.next
    let xs ← run n it'
    .ok (x :: xs)

end LineIter
end Scribe
