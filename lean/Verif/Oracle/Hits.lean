import Verif.Oracle.Buffer
import Verif.Model.Search
/-! # Executable forms of C118 -/
namespace Scribe.Oracle
open Spec Buf

variable (S : Segmenter)

/-- Of every hit: its line, what is before and what is from the occurrence on. -/
def hits (b : Buf) (needle : Text) (check : Position → Text → Text → Bool) : Bool :=
  okImp b.data.toStr fun t => imp ('\r' ∉ t) <| okImp (b.search needle) fun ps => ps.all fun p =>
    match (splitNl t)[p.line]? with
    | none => false
    | some l =>
      match strSplit l p.offset with
      | .error _ => false
      | .ok (x, z) => decide (needle <+: z) && check p x l

def o_C118_bounds (b : Buf) (needle : Text) : Bool :=
  hits b needle fun p x l => decide (b.data.inBounds S p = .ok (decide (blen x ≤ (S.segs l).length)))

def o_C118_column (b : Buf) (needle : Text) : Bool :=
  hits b needle fun p x l =>
    let a := (S.segs l).take (S.segs x).length
    let m := ((S.segs l).drop (S.segs x).length).take (S.segs needle).length
    imp (decide (a.flatten = x ∧ m.flatten = needle)) <|
      decide (b.data.read S ⟨⟨p.line, (S.segs x).length⟩, ⟨p.line, (S.segs x).length + (S.segs needle).length⟩⟩ = .ok (some needle)) &&
        decide ((S.segs x).length ≤ p.offset) && decide ((S.segs x).length = p.offset ↔ ∀ g ∈ S.segs x, blen g = 1)

def o_C118_astray (b : Buf) (needle : Text) (n : Nat) : Bool :=
  hits b needle fun p x l => decide (b.data.read S ⟨p, ⟨p.line, p.offset + n⟩⟩ =
    .ok (if blen x + n ≤ (S.segs l).length then some (((S.segs l).drop (blen x)).take n).flatten else none))

end Scribe.Oracle
