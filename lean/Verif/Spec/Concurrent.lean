import Verif.Spec.Marks
import Verif.Spec.Ordinary
/-!
# Edits made at the same time

Two programs start from the same text and edit it without knowing of each other; then each makes the other's edits, moved to where they belong in its own text
(operational transformation). Only positions are computed with, not texts.
-/
namespace Scribe.Spec
open Buf (Cmd)

/-- Text put in at a place, or what is between two places cut out. -/
inductive Delta where
  | put (p : Position) (s : Text)
  | cut (p q : Position)
deriving DecidableEq, Repr

namespace Delta

local instance : DecidableRel Before := fun p q => by unfold Before; infer_instance
local instance : DecidableRel AtOrBefore := fun p q => by unfold AtOrBefore; infer_instance

/-- How the change is made. -/
def calls : Delta → List Cmd
  | .put p s => [.move (.to p), .insert s]
  | .cut p q => [.deleteRange p q]

variable (segs : Text → List Text) (P : Text → Prop)

/-- The change can be made in `t`: its places exist, and what is put in is ordinary text. -/
def Fits (t : Text) : Delta → Prop
  | .put p s => exists? segs t p = true ∧ Over segs P s
  | .cut p q => AtOrBefore p q ∧ exists? segs t p = true ∧ exists? segs t q = true

/-- The text with the change made. -/
def on (t : Text) : Delta → Text
  | .put p s => insertAt segs t s p
  | .cut p q => deleteRange segs t p q

/-- The changes can be made one after the other. -/
def FitsAll : Text → List Delta → Prop
  | _, [] => True
  | t, e :: es => e.Fits segs P t ∧ FitsAll (e.on segs t) es

/-- The change `e`, made for the text in which `f` is not made yet, for the text in which it is. Of two texts put in at the same place that of the first
program comes first. What is put inside a part that is cut out is cut out with it. -/
def against (first : Bool) (e f : Delta) : Delta :=
  match e, f with
  | .put p s, .put p' s' =>
    if Before p p' ∨ (p = p' ∧ first = true) then .put p s
    else .put (afterInsert p' (endPos (segs s')) p) s
  | .put p s, .cut p' q' =>
    if Before p' p ∧ Before p q' then .put p' []
    else .put (afterDelete p' q' p) s
  | .cut p q, .put p' s' =>
    let shift := afterInsert p' (endPos (segs s'))
    if AtOrBefore p' p then .cut (shift p) (shift q)
    else if Before p' q then .cut p (shift q)
    else .cut p q
  | .cut p q, .cut p' q' => .cut (afterDelete p' q' p) (afterDelete p' q' q)

/-- A change of the first program past changes of the second: the change, and the others, as they are to be made afterwards. -/
def past (e : Delta) : List Delta → Delta × List Delta
  | [] => (e, [])
  | f :: fs =>
    let r := past (e.against segs true f) fs
    (r.1, f.against segs false e :: r.2)

/-- Changes of the first program past changes of the second. -/
def pastAll : List Delta → List Delta → List Delta × List Delta
  | [], fs => ([], fs)
  | e :: es, fs =>
    let r := e.past segs fs
    let r' := pastAll es r.2
    (r.1 :: r'.1, r'.2)

/-- What the change puts in at `q`. -/
def putsAt (q : Position) : Delta → List Text
  | .put p s => if p = q then segs s else []
  | .cut _ _ => []

/-- The change cuts out the cluster at `q`. -/
def removes (q : Position) : Delta → Bool
  | .put _ _ => false
  | .cut p r => decide (AtOrBefore p q ∧ Before q r)

/-- The change cuts out what is on both sides of `q`. -/
def surrounds (q : Position) : Delta → Bool
  | .put _ _ => false
  | .cut p r => decide (Before p q ∧ Before q r)

/-- Clusters from position `q` on, with others put in and some left out. -/
def weave (puts : Position → List Text) (gone : Position → Bool) (q : Position) : List Text → List Text
  | [] => puts q
  | c :: cs => puts q ++ (if gone q then [] else [c]) ++ weave puts gone (following q c) cs

/-- The text with two changes made at the same time: at each place what `e` puts in, then what `f` does, then the cluster there, but nothing that is cut out. -/
def merged (e f : Delta) (t : Text) : Text :=
  (weave (fun q => (if f.surrounds q then [] else e.putsAt segs q) ++ (if e.surrounds q then [] else f.putsAt segs q)) (fun q => e.removes q || f.removes q)
    ⟨0, 0⟩ (segs t)).flatten

end Delta
end Scribe.Spec
