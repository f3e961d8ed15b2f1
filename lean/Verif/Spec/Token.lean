import Verif.Model.Token
/-! # Specification of token streams -/
namespace Scribe.Spec
variable {K : Type}

/-- The text of some tokens. -/
def render : List (Token K) → Text
  | [] => []
  | .newline :: ts => '\n' :: render ts
  | .lexeme v _ _ :: ts => v ++ render ts

/-- Line number and cluster count on that line after some tokens. -/
def posAfter (segs : Text → List Text) (ts : List (Token K)) : Position :=
  ts.foldl (fun p t => match t with
    | .newline => ⟨p.line + 1, 0⟩
    | .lexeme v _ _ => ⟨p.line, p.offset + (segs v).length⟩) ⟨0, 0⟩

/-- The number of bytes after the last newline token. -/
def bytesAfter (ts : List (Token K)) : Nat :=
  ts.foldl (fun n t => match t with
    | .newline => 0
    | .lexeme v _ _ => n + blen v) 0

/-- The lines of a text, each with its newline. -/
def fileLines : Text → List Text
  | [] => [[]]
  | c :: cs =>
    if c = '\n' then [c] :: fileLines cs
    else match fileLines cs with
      | [] => [[c]]
      | l :: ls => (c :: l) :: ls

/-- The events of some lines, parsed one after the other up to the first failure. -/
def events {H : Highlighter} (p : H.Parser) : List Text → List (List (Nat × H.Op))
  | [] => []
  | l :: ls =>
    match H.parse p l with
    | (p', .ok es) => es :: events p' ls
    | (_, .error _) => []

/-- The scope stack after some events. -/
def scopeAfter (H : Highlighter) (es : List (Nat × H.Op)) : H.Scopes := es.foldl (fun k e => (H.apply k e.2).1) H.scopes

/-- The contract of the parser: offsets of events are character boundaries of the line. -/
def OffsetsOk (H : Highlighter) : Prop :=
  ∀ p l p' es, H.parse p l = (p', .ok es) → ∀ e ∈ es, ∃ x y, l = x ++ y ∧ e.1 = blen x

end Scribe.Spec

namespace Scribe.TokenIter

/-- The parser or the scope stack can fail. -/
def CanFail (H : Highlighter) : Prop := (∃ k op, (H.apply k op).2.isSome) ∨ ∃ p l e, (H.parse p l).2 = .error e

/-- The results of `n` calls of `next`, whatever they return. -/
def nexts (S : Segmenter) {H : Highlighter} : Nat → TokenIter H → R (List (Option (Token H.Scopes)) × TokenIter H)
  | 0, it => .ok ([], it)
  | n + 1, it => do
    let (o, it) ← TokenIter.next S it
    let (os, it) ← nexts S n it
    return (o :: os, it)

end Scribe.TokenIter
