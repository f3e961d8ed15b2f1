import Verif.Spec.Text
/-!
# What it means for a gap buffer to hold a text
-/
namespace Scribe
open Spec

/-- The representation relation: text before the gap, text after the gap. -/
def Rep (g : GapBuffer) (pre post : Text) : Prop :=
  ∃ gap : Bytes, g.data = enc pre ++ gap ++ enc post ∧ g.gapStart = (enc pre).length ∧ g.gapLength = gap.length

/-- `g` holds the text `t`, with the gap on a cluster boundary of `t`. -/
def Holds (S : Segmenter) (g : GapBuffer) (t : Text) : Prop :=
  ∃ pre post, t = pre ++ post ∧ Rep g pre post ∧ S.segs t = S.segs pre ++ S.segs post

end Scribe

namespace Scribe.Props
open Spec GapBuffer

/-- `g` can be reached from `GapBuffer::new` by API calls. -/
def Reachable (S : Segmenter) (A : Alloc) (g : GapBuffer) : Prop :=
  ∃ k t cs os, run S A (GapBuffer.new A k t) cs = .ok (os, g)

end Scribe.Props
