import Verif.Model.Token
/-!
# Token iterators whose panics are caught

A call of `next` panics if the parser reports an offset that cannot be sliced at, or if the parser or the scope stack (crate `syntect`) panic. A caller that catches it
(`std::panic::catch_unwind`) can go on with the iterator as it is at that moment. `Verif/Model/Token.lean` has no such state: here src/buffer/token/token_iterator.rs is modelled again,
with the iterator that an unwound call leaves. `boom e` says that the value `e`, where `Highlighter` has an error, stands for a panic of `syntect`; the state
that comes with it is what the unwound call of `syntect` left.
-/
namespace Scribe.TokenUnwind

/-- A call returns, or is unwound. -/
inductive Out (α : Type) where
  | done (a : α)
  | unwound
  deriving DecidableEq, Repr

variable {H : Highlighter} (S : Segmenter) (boom : H.Err → Bool)

/-- A call of `syntect` gave `e`: an error that `?` passes on, or a panic. -/
def failed {α : Type} (e : H.Err) : Out (Except H.Err α) := if boom e then .unwound else .done (.error e)

/-- src/buffer/token/token_iterator.rs:135-159 `parse_next_line`. `LineIterator::next` never panics (C35); if it did, it is as if it had not been called. The line has been taken when the parser panics. -/
def parseNextLine (it : TokenIter H) : Out (Except H.Err Unit) × TokenIter H :=
  match it.lines.next with
  | .error _ => (.unwound, it)
  | .ok (next, lines) =>
    let it := { it with lines := lines }
    match next with
    | some (number, line) =>
      match H.parse it.parser line with
      | (parser, .error e) => (failed boom e, { it with parser := parser })
      | (parser, .ok events) =>
        (.done (.ok ()), { it with
          parser := parser
          lineEvents := events
          currentLine := some line
          position := ⟨number, 0⟩
          byteOffset := 0 })
    | none => (.done (.ok ()), { it with currentLine := none })

/-- src/buffer/token/token_iterator.rs:87-130: the `while` loop over the events and the rest of `build_next_token`. An event has been popped when slicing or applying it
panics; the position and the offset are changed between these two. -/
def buildLoop (line : Text) (eol : Nat) : List (Nat × H.Op) → TokenIter H → Out (Except H.Err (Option (Token H.Scopes))) × TokenIter H
  | [], it =>
    let it := { it with lineEvents := [] }
    if it.byteOffset < eol then
      match strSlice line it.byteOffset eol with
      | .error _ => (.unwound, it)
      | .ok value => (.done (.ok (some (.lexeme value it.scopes it.position))), { it with currentLine := none })
    else (.done (.ok none), { it with currentLine := none })
  | (offset, op) :: events, it =>
    let it := { it with lineEvents := events }
    if offset > it.byteOffset then
      match strSlice line it.byteOffset (min offset eol) with
      | .error _ => (.unwound, it)
      | .ok value =>
        let token := Token.lexeme value it.scopes it.position
        let it := { it with
          position := ⟨it.position.line, it.position.offset + (S.segs value).length⟩
          byteOffset := offset }
        match H.apply it.scopes op with
        | (scopes, some e) => (failed boom e, { it with scopes := scopes })
        | (scopes, none) => (.done (.ok (some token)), { it with scopes := scopes })
    else
      match H.apply it.scopes op with
      | (scopes, some e) => (failed boom e, { it with scopes := scopes })
      | (scopes, none) => buildLoop line eol events { it with scopes := scopes }

/-- src/buffer/token/token_iterator.rs:76-133 `build_next_token`. -/
def buildNextToken (it : TokenIter H) : Out (Except H.Err (Option (Token H.Scopes))) × TokenIter H :=
  match it.currentLine with
  | some line =>
    match TokenIter.endOfLine line with
    | .error _ => (.unwound, it)
    | .ok eol => buildLoop S boom line eol it.lineEvents it
  | none => (.done (.ok none), { it with currentLine := none })

/-- src/buffer/token/token_iterator.rs:44-74 `next_token` (and `next`, 162-168). -/
def next (it : TokenIter H) : Out (Option (Token H.Scopes)) × TokenIter H :=
  match buildNextToken S boom it with
  | (.unwound, it) => (.unwound, it)
  | (.done (.error e), it) => (.done none, { it with error := some e })
  | (.done (.ok (some token)), it) => (.done (some token), it)
  | (.done (.ok none), it) =>
    match parseNextLine boom it with
    | (.unwound, it) => (.unwound, it)
    | (.done (.error e), it) => (.done none, { it with error := some e })
    | (.done (.ok ()), it) => (.done (if it.currentLine.isSome then some .newline else none), it)

/-- src/buffer/token/token_iterator.rs:21-42 `new`; if it is unwound there is no iterator. -/
def new (data : Text) : Out (Except H.Err (TokenIter H)) :=
  let it : TokenIter H := {
    scopes := H.scopes, parser := H.parser, lines := LineIter.new data, currentLine := none, byteOffset := 0
    position := ⟨0, 0⟩, lineEvents := [], error := none }
  match parseNextLine boom it with
  | (.unwound, _) => .unwound
  | (.done (.error e), _) => .done (.error e)
  | (.done (.ok ()), it) => .done (.ok it)

end Scribe.TokenUnwind
