import Verif.Model.LineIterator
import Verif.Model.Segmenter
import Verif.Model.Position
/-!
# Model of src/buffer/token/{mod,token_iterator,token_set}.rs

The syntax highlighter (crate `syntect`: `ParseState`, `ScopeStack`, `ScopeStackOp`, `SyntaxSet`) is not modelled but
abstracted by `Highlighter`: any deterministic parser with a state, any scope stack, both of which may fail.
-/
namespace Scribe

/-- What is used of `syntect`: `parse` is `ParseState::parse_line(&mut self, line, syntaxes)` (new state; events or error) and `apply` is
`ScopeStack::apply(&mut self, op)` (new stack; error if any). -/
structure Highlighter where
  (Parser Scopes Op Err : Type)
  /-- `ParseState::new(def)`, for the definition of the buffer. -/
  parser : Parser
  /-- `ScopeStack::new()`. -/
  scopes : Scopes
  parse : Parser → Text → Parser × Except Err (List (Nat × Op))
  apply : Scopes → Op → Scopes × Option Err

/-- src/buffer/token/mod.rs:10-21 `Token` and `Lexeme`. -/
inductive Token (K : Type) where
  | newline
  | lexeme (value : Text) (scope : K) (position : Position)
  deriving DecidableEq

/-- src/buffer/token/token_iterator.rs:8-18 `TokenIterator`. The vector `line_events` is only popped from its end; it is represented with its
last element first. -/
structure TokenIter (H : Highlighter) where
  scopes : H.Scopes
  parser : H.Parser
  lines : LineIter
  currentLine : Option Text
  byteOffset : Nat
  position : Position
  lineEvents : List (Nat × H.Op)
  error : Option H.Err

namespace TokenIter
variable {H : Highlighter} (S : Segmenter)

/-- src/buffer/token/token_iterator.rs:135-159 `parse_next_line`. The events are reversed (line 140), and so, last first, are in order. -/
def parseNextLine (it : TokenIter H) : R (Except H.Err Unit × TokenIter H) := do
  let (next, lines) ← it.lines.next
  let it := { it with lines := lines }
  match next with
  | some (number, line) =>
    match H.parse it.parser line with
    | (parser, .error e) => .ok (.error e, { it with parser := parser })
    | (parser, .ok events) =>
      .ok (.ok (), { it with
        parser := parser
        lineEvents := events
        currentLine := some line
        position := ⟨number, 0⟩
        byteOffset := 0 })
  | none => .ok (.ok (), { it with currentLine := none })

/-- src/buffer/token/token_iterator.rs:87-130: the `while` loop over the events (first argument: the events to pop) and the rest of
`build_next_token`. The loop returns as soon as it has a lexeme. -/
def buildLoop (line : Text) (eol : Nat) : List (Nat × H.Op) → TokenIter H → R (Except H.Err (Option (Token H.Scopes)) × TokenIter H)
  | [], it => do
    let it := { it with lineEvents := [] }
    if it.byteOffset < eol then do
      let value ← strSlice line it.byteOffset eol
      .ok (.ok (some (.lexeme value it.scopes it.position)), { it with currentLine := none })
    else .ok (.ok none, { it with currentLine := none })
  | (offset, op) :: events, it => do
    let it := { it with lineEvents := events }
    if offset > it.byteOffset then do
      let value ← strSlice line it.byteOffset (min offset eol)
      let token := Token.lexeme value it.scopes it.position
      let it := { it with
        position := ⟨it.position.line, it.position.offset + (S.segs value).length⟩
        byteOffset := offset }
      match H.apply it.scopes op with
      | (scopes, some e) => .ok (.error e, { it with scopes := scopes })
      | (scopes, none) => .ok (.ok (some token), { it with scopes := scopes })
    else
      match H.apply it.scopes op with
      | (scopes, some e) => .ok (.error e, { it with scopes := scopes })
      | (scopes, none) => buildLoop line eol events { it with scopes := scopes }

/-- src/buffer/token/token_iterator.rs:81-85: the length of a line without its newline. -/
def endOfLine (line : Text) : R Nat :=
  if line.getLast? = some '\n' then subU (blen line) 1 else .ok (blen line)

/-- src/buffer/token/token_iterator.rs:76-133 `build_next_token`. -/
def buildNextToken (it : TokenIter H) : R (Except H.Err (Option (Token H.Scopes)) × TokenIter H) :=
  match it.currentLine with
  | some line => do
    let eol ← endOfLine line
    buildLoop S line eol it.lineEvents it
  | none => .ok (.ok none, { it with currentLine := none })

/-- src/buffer/token/token_iterator.rs:44-74 `next_token` (and `next`, 162-168). -/
def next (it : TokenIter H) : R (Option (Token H.Scopes) × TokenIter H) := do
  let (result, it) ← buildNextToken S it
  match result with
  | .error e => .ok (none, { it with error := some e })
  | .ok (some token) => .ok (some token, it)
  | .ok none => do
    let (parsed, it) ← parseNextLine it
    match parsed with
    | .error e => .ok (none, { it with error := some e })
    | .ok () => .ok (if it.currentLine.isSome then some .newline else none, it)

/-- src/buffer/token/token_iterator.rs:21-42 `new`, and src/buffer/token/token_set.rs:20-22 `iter`. -/
def new (H : Highlighter) (data : Text) : R (Except H.Err (TokenIter H)) := do
  let it : TokenIter H := {
    scopes := H.scopes, parser := H.parser, lines := LineIter.new data, currentLine := none, byteOffset := 0
    position := ⟨0, 0⟩, lineEvents := [], error := none }
  let (parsed, it) ← parseNextLine it
  match parsed with
  | .error e => .ok (.error e)
  | .ok () => .ok (.ok it)

/-- Calling `next` until it returns `None` gives these tokens and leaves this iterator (`for` loops, `collect`). -/
inductive Collects (S : Segmenter) {H : Highlighter} : TokenIter H → List (Token H.Scopes) → TokenIter H → Prop
  | stop {it it' : TokenIter H} : next S it = .ok (none, it') → Collects S it [] it'
  | next {it it1 it' : TokenIter H} {t ts} : next S it = .ok (some t, it1) → Collects S it1 ts it' → Collects S it (t :: ts) it'

/-- The same with an explicit bound on the number of calls; `none` if the bound is too small. -/
def collect (S : Segmenter) {H : Highlighter} : Nat → TokenIter H → R (Option (List (Token H.Scopes) × Option H.Err))
  | 0, _ => .ok none
  | n + 1, it => do
    match ← TokenIter.next S it with
    | (none, it') => .ok (some ([], it'.error))
    | (some t, it') => do
      match ← collect S n it' with
      | some (ts, e) => .ok (some (t :: ts, e))
      | none => .ok none

end TokenIter
end Scribe
