import Verif.RepoTests.Common
import Verif.Model.Token
/-!
# Tests of src/util/line_iterator.rs and src/buffer/token/token_iterator.rs

The grammars of `syntect` are not modelled. The events that its Rust grammar produces for the texts of the tests are written out here, as they follow
from the scopes that the tests expect.
-/
namespace Scribe.RepoTests

/-! ## src/util/line_iterator.rs:66-90 -/
namespace LineTests

theorem next_produces_a_value_for_empty_data : Passes (do
    let (line, _) ← (LineIter.new (s "")).next
    check (some (0, s "") = line)) := by decide +kernel

theorem next_includes_trailing_newlines : Passes (do
    let lines := LineIter.new (s "line\nanother line\n")
    let (line, lines) ← lines.next
    check (some (0, s "line\n") = line)
    let (line, lines) ← lines.next
    check (some (1, s "another line\n") = line)
    let (line, _) ← lines.next
    check (some (2, s "") = line)) := by decide +kernel

theorem next_stops_at_end_of_data : Passes (do
    let lines := LineIter.new (s "line\nanother line")
    let (_, lines) ← lines.next
    let (_, lines) ← lines.next
    let (line, _) ← lines.next
    check (none = line)) := by decide +kernel

end LineTests

/-! ## src/buffer/token/token_iterator.rs:171-340 -/
namespace TokenTests

/-- `ScopeStackOp`. -/
inductive ScopeOp where
  | push (scope : String)
  | pop (n : Nat)

/-- A highlighter that gives these events for the lines, one after the other; the top of the scope stack is first. -/
def scripted (script : List (List (Nat × ScopeOp))) : Highlighter where
  Parser := List (List (Nat × ScopeOp))
  Scopes := List String
  Op := ScopeOp
  Err := Unit
  parser := script
  scopes := []
  parse p _ := (p.tail, .ok (p.head?.getD []))
  apply k
    | .push x => (x :: k, none)
    | .pop n => if n ≤ k.length then (k.drop n, none) else (k, some ())

/-- The tokens of a text. -/
def tokens (script : List (List (Nat × ScopeOp))) (x : String) : R (List (Token (List String))) := do
  match ← TokenIter.new (scripted script) (s x) with
  | .error _ => .error .unwrap
  | .ok it =>
    match ← TokenIter.collect S 100 it with
    | some (ts, none) => .ok ts
    | _ => .error .unwrap

def rust : List (List (Nat × ScopeOp)) := [
  [(0, .push "source.rust"), (0, .push "meta.struct.rust"), (0, .push "storage.type.struct.rust"), (6, .pop 1),
    (7, .push "entity.name.struct.rust"), (13, .pop 1), (14, .push "meta.block.rust"), (14, .push "punctuation.section.block.begin.rust"), (15, .pop 1)],
  [(0, .push "comment.line.double-slash.rust"), (0, .push "punctuation.definition.comment.rust"), (2, .pop 1), (11, .pop 1)],
  [(2, .push "variable.other.member.rust"), (6, .pop 1), (6, .push "punctuation.separator.rust"), (7, .pop 1)],
  [(0, .push "punctuation.section.block.end.rust"), (1, .pop 1), (1, .pop 1), (1, .pop 1)]]

/-- The tokens that the test expects. -/
def expected : List (Token (List String)) :=
  let top := ["source.rust"]
  let struct := "meta.struct.rust" :: top
  let block := "meta.block.rust" :: struct
  let comment := "comment.line.double-slash.rust" :: block
  [.lexeme (s "struct") ("storage.type.struct.rust" :: struct) ⟨0, 0⟩,
    .lexeme (s " ") struct ⟨0, 6⟩,
    .lexeme (s "Buffer") ("entity.name.struct.rust" :: struct) ⟨0, 7⟩,
    .lexeme (s " ") struct ⟨0, 13⟩,
    .lexeme (s "{") ("punctuation.section.block.begin.rust" :: block) ⟨0, 14⟩,
    .newline,
    .lexeme (s "//") ("punctuation.definition.comment.rust" :: comment) ⟨1, 0⟩,
    .lexeme (s " comment") comment ⟨1, 2⟩,
    .newline,
    .lexeme (s "  ") block ⟨2, 0⟩,
    .lexeme (s "data") ("variable.other.member.rust" :: block) ⟨2, 2⟩,
    .lexeme (s ":") ("punctuation.separator.rust" :: block) ⟨2, 6⟩,
    .lexeme (s " String") block ⟨2, 7⟩,
    .newline,
    .lexeme (s "}") ("punctuation.section.block.end.rust" :: block) ⟨3, 0⟩,
    .lexeme (s "garbage") top ⟨3, 1⟩,
    .newline,
    .newline]

theorem token_iterator_returns_correct_tokens : Passes (do
    check ((← tokens rust "struct Buffer {\n// comment\n  data: String\n}garbage\n\n") = expected)) := by decide +kernel

theorem token_iterator_handles_content_without_trailing_newline : Passes (do
    check ((← tokens [[(0, .push "text.plain")]] "struct") = [.lexeme (s "struct") ["text.plain"] ⟨0, 0⟩])) := by decide +kernel

theorem token_iterator_handles_unicode_characters : Passes (do
    let ts ← tokens [[(0, .push "source.rust"), (3, .push "constant.numeric.integer.decimal.rust"), (5, .pop 1)]] "€16"
    check (ts = [
      .lexeme (s "€") ["source.rust"] ⟨0, 0⟩,
      .lexeme (s "16") ["constant.numeric.integer.decimal.rust", "source.rust"] ⟨0, 1⟩])) := by decide +kernel

end TokenTests
end Scribe.RepoTests
