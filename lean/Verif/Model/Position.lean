import Verif.Model.Rust
/-!
# Positions, distances, ranges

Models src/buffer/{position,distance,range,line_range}.rs.
-/
namespace Scribe

/-- src/buffer/position.rs:10-14 `struct Position` (derives PartialEq, Default). -/
structure Position where
  line : Nat
  offset : Nat
  deriving DecidableEq, Repr, Inhabited

/-- src/buffer/position.rs:16-30 `PartialOrd::partial_cmp` (always `Some`). -/
def Position.cmp (a b : Position) : Ordering :=
  if a.line < b.line then .lt
  else if a.line > b.line then .gt
  else if a.offset < b.offset then .lt
  else if a.offset > b.offset then .gt
  else .eq

/-- `a > b` through `partial_cmp`. -/
def Position.gtb (a b : Position) : Bool := a.cmp b == .gt
/-- `a < b` through `partial_cmp`. -/
def Position.ltb (a b : Position) : Bool := a.cmp b == .lt
/-- `a >= b` through `partial_cmp`. -/
def Position.geb (a b : Position) : Bool := a.cmp b != .lt

/-- src/buffer/position.rs:73-75 `Position::new`. -/
def Position.new : Position := ⟨0, 0⟩

/-- src/buffer/distance.rs:4-8 `struct Distance`. -/
structure Distance where
  lines : Nat
  offset : Nat
  deriving DecidableEq, Repr, Inhabited

/-- src/buffer/distance.rs:25-30 `Distance::of_str`: newline count, and the *byte* length of the
piece after the last newline. -/
def Distance.ofStr (s : Text) : Distance where
  lines := countNl s
  offset := ((splitNl s).getLast?.map blen).getD 0

/-- src/buffer/position.rs:32-47 `Add<Distance>`. -/
def Position.add (p : Position) (d : Distance) : Position :=
  let offset := if d.lines > 0 then d.offset else p.offset + d.offset
  ⟨p.line + d.lines, offset⟩

/-- src/buffer/position.rs:49-58 `AddAssign<Distance>`: the line is updated first, then the
offset. -/
def Position.addAssign (p : Position) (d : Distance) : Position :=
  let p1 : Position := { p with line := p.line + d.lines }
  { p1 with offset := if d.lines > 0 then d.offset else p1.offset + d.offset }

/-- src/buffer/range.rs:5-8 `struct Range`. -/
structure Range where
  start : Position
  stop : Position
  deriving DecidableEq, Repr

/-- src/buffer/range.rs:13-23 `Range::new`. -/
def Range.new (s e : Position) : Range :=
  if s.gtb e then ⟨e, s⟩ else ⟨s, e⟩

/-- src/buffer/range.rs:59-61 `Range::includes`. -/
def Range.includes (r : Range) (p : Position) : Bool :=
  p.geb r.start && p.ltb r.stop

/-- src/buffer/line_range.rs:5-8 `struct LineRange`. -/
structure LineRange where
  start : Nat
  stop : Nat
  deriving DecidableEq, Repr

/-- src/buffer/line_range.rs:13-22 `LineRange::new`. -/
def LineRange.new (s e : Nat) : LineRange :=
  if s < e then ⟨s, e⟩ else ⟨e, s⟩

/-- src/buffer/line_range.rs:48-59 `LineRange::to_range`. -/
def LineRange.toRange (r : LineRange) : Range := Range.new ⟨r.start, 0⟩ ⟨r.stop, 0⟩

/-- src/buffer/line_range.rs:78-89 `LineRange::to_inclusive_range`. -/
def LineRange.toInclusiveRange (r : LineRange) : Range := Range.new ⟨r.start, 0⟩ ⟨r.stop + 1, 0⟩

/-- src/buffer/line_range.rs:105-107 `LineRange::includes`. -/
def LineRange.includes (r : LineRange) (l : Nat) : Bool := decide (l ≥ r.start) && decide (l < r.stop)

end Scribe
