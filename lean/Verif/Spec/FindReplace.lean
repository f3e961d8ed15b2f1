import Verif.Spec.Ordinary
import Verif.Model.Search
/-!
# Find and replace

What an editor does with the results of `Buffer::search`, and what it should achieve.
-/
namespace Scribe.Spec
open Buf (Cmd)

/-- The text with every occurrence of `needle` replaced by `r`, found from left to right without overlaps, as `str::replace` does; the first `k` characters are left out. -/
def substitute (needle r : Text) : Nat → Text → Text
  | _, [] => []
  | k + 1, _ :: t => substitute needle r k t
  | 0, c :: t => if needle <+: c :: t then r ++ substitute needle r (needle.length - 1) t else c :: substitute needle r 0 t

/-- Of the results of a search, those that do not overlap with one before. `n` is the length of the needle. -/
def disjoint (n : Nat) : Option Position → List Position → List Position
  | _, [] => []
  | none, p :: ps => p :: disjoint n (some p) ps
  | some q, p :: ps => if p.line = q.line ∧ p.offset < q.offset + n then disjoint n (some q) ps else p :: disjoint n (some p) ps

/-- Replace one result. -/
def change (n : Nat) (r : Text) (p : Position) : List Cmd := [.deleteRange p ⟨p.line, p.offset + n⟩, .move (.to p), .insert r]

/-- Replace all of them, the last one first, so that the positions of the others stay right. -/
def changeAll (n : Nat) (r : Text) (ps : List Position) : List Cmd := (disjoint n none ps).reverse.flatMap (change n r)

/-- Clusters of one byte. -/
def OneByte (P : Text → Prop) : Prop := ∀ c, P c → ∃ x : Char, c = [x] ∧ x.utf8Size = 1

end Scribe.Spec
