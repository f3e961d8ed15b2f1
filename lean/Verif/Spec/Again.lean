import Verif.Spec.Stream
/-! # Highlighting only what changed -/
namespace Scribe.Spec
variable {H : Highlighter}

/-- The scopes and the parser after these lines, if nothing fails. -/
def stateAfter (H : Highlighter) : H.Scopes → H.Parser → List Text → Option (H.Scopes × H.Parser)
  | k, p, [] => some (k, p)
  | k, p, l :: ls =>
    match H.parse p l with
    | (_, .error _) => none
    | (p', .ok es) =>
      match firstError.applyAll H k es with
      | .error _ => none
      | .ok k' => stateAfter H k' p' ls

/-- Those at the start of the last line of a text. -/
def lastState (H : Highlighter) (t : Text) : Option (H.Scopes × H.Parser) := stateAfter H H.scopes H.parser (fileLines t).dropLast

/-- The same highlighter beginning in another state. -/
def _root_.Scribe.Highlighter.resume (H : Highlighter) (s : H.Scopes × H.Parser) : Highlighter := { H with scopes := s.1, parser := s.2 }

/-- A token some lines further down. -/
def lower {K : Type} (d : Nat) : Token K → Token K
  | .newline => .newline
  | .lexeme v k p => .lexeme v k ⟨p.line + d, p.offset⟩

/-- Lexemes of lines before line `n`, and any newlines. -/
def Above {K : Type} (n : Nat) : Token K → Prop
  | .newline => True
  | .lexeme _ _ p => p.line < n

end Scribe.Spec
