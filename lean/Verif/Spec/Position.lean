import Verif.Model.Position
/-!
# Specification of positions

What a position of a text *means*, independent of the implementation: the text is cut into
grapheme clusters; a position names a place between clusters by the number of newline clusters
before it and the number of clusters since the last of those newlines.
-/
namespace Scribe.Spec

/-- Strict lexicographic order on positions. -/
def Before (p q : Position) : Prop := p.line < q.line ∨ (p.line = q.line ∧ p.offset < q.offset)

/-- Lexicographic order on positions. -/
def AtOrBefore (p q : Position) : Prop := p.line < q.line ∨ (p.line = q.line ∧ p.offset ≤ q.offset)

/-- The position reached after the clusters `cs`: how many newline clusters there are, and how many
clusters follow the last of them. -/
def endPos (cs : List Text) : Position where
  line := cs.count ['\n']
  offset := (cs.reverse.takeWhile (· != ['\n'])).length

/-- `p` names the place between `pre` and `post` in a text cut into the clusters `cs`. -/
def PlaceIn (cs : List Text) (p : Position) (pre post : Text) : Prop :=
  ∃ a b, cs = a ++ b ∧ pre = a.flatten ∧ post = b.flatten ∧ endPos a = p

end Scribe.Spec
