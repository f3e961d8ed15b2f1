import Verif.Spec.Doc
import Verif.Spec.Position
/-!
# A cache kept with the change callback

An application keeps values that it has computed from the text before the start of some lines (the state of a parser, say).
When the change callback reports a position, it drops those of later lines. Between calls it may compute values, and drop any.
-/
namespace Scribe.Spec
open Scribe.Buf (Cmd exec)
variable {β : Type}

/-- Values by line number. -/
abbrev Cache (β : Type) := List (Nat × β)

/-- The change callback. -/
def Cache.reported (c : Cache β) (p : Position) : Cache β := c.filter fun e => e.1 ≤ p.line

/-- The text before the start of a line, if there is such a line. -/
def beforeLine (segs : Text → List Text) (t : Text) (n : Nat) : Option Text := (locate (segs t) ⟨n, 0⟩).map (·.1.flatten)

/-- Every value is the right one for the text. -/
def Cache.Right (segs : Text → List Text) (f : Text → β) (t : Text) (c : Cache β) : Prop :=
  ∀ e ∈ c, ∃ x, beforeLine segs t e.1 = some x ∧ e.2 = f x

/-- What the application does: a call to the buffer; computing the value of a line; forgetting that of a line. -/
inductive Turn where
  | call (c : Cmd)
  | compute (n : Nat)
  | forget (n : Nat)

/-- One turn. The positions reported by a call are those added to the log. -/
def turn (S : Segmenter) (A : Alloc) (f : Text → β) (bc : Buf × Cache β) : Turn → R (Buf × Cache β)
  | .call c => do
    let b ← exec S A bc.1 c
    .ok (b, (b.log.drop bc.1.log.length).foldl Cache.reported bc.2)
  | .compute n => do
    let t ← bc.1.data.toStr
    match beforeLine S.segs t n with
    | some x => .ok (bc.1, (n, f x) :: bc.2)
    | none => .ok bc
  | .forget n => .ok (bc.1, bc.2.filter fun e => e.1 ≠ n)

/-- Several turns. -/
def turns (S : Segmenter) (A : Alloc) (f : Text → β) : Buf × Cache β → List Turn → R (Buf × Cache β)
  | bc, [] => .ok bc
  | bc, a :: as => do
    let bc ← turn S A f bc a
    turns S A f bc as

/-- The calls made. -/
def Turn.calls : List Turn → List Cmd := List.filterMap fun
  | .call c => some c
  | _ => none

end Scribe.Spec
