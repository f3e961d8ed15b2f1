import Verif.Spec.Position
/-!
# Grapheme segmentation

The crate `unicode-segmentation` (`graphemes(true)`, `grapheme_indices(true)`) is a parameter of
the model: a function cutting a string into clusters, with the laws below. The laws are consequences
of UAX #29; `Verif/Model/Uax29.lean` defines the extended-grapheme-cluster automaton of the standard
for an arbitrary property table and proves that it satisfies them.
-/
namespace Scribe

/-- A grapheme cluster segmentation, as used through `UnicodeSegmentation::graphemes(true)`. -/
structure Segmenter where
  /-- `s.graphemes(true).collect()` -/
  segs : Text → List Text
  /-- the clusters make up the string -/
  join : ∀ s, (segs s).flatten = s
  /-- no cluster is empty -/
  nonempty : ∀ s c, c ∈ segs s → c ≠ []
  /-- cutting at a cluster boundary does not change the clusters on either side (every rule of UAX #29 that
  looks back does so within one cluster, and none looks ahead past the next character) -/
  cut : ∀ s a b, segs s = a ++ b → segs a.flatten = a ∧ segs b.flatten = b
  /-- GB4/GB5: a newline is a cluster by itself, or ends a CRLF cluster -/
  newline : ∀ s c, c ∈ segs s → '\n' ∈ c → c = ['\n'] ∨ c = ['\r', '\n']
  /-- GB3: no boundary between CR and LF -/
  crlf : ∀ s a b c, segs s = a ++ ['\n'] :: b → a.getLast? = some c → c.getLast? ≠ some '\r'
  /-- joining two strings can merge clusters at the seam (and, for regional indicators, shift the
  boundaries after it), but never moves the end position forward -/
  fuse : ∀ x y, Spec.AtOrBefore (Spec.endPos (segs (x ++ y))) (Spec.endPos (segs x ++ segs y))

end Scribe
