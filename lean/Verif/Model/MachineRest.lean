import Verif.Model.Machine
import Verif.Model.Token
import Verif.Model.Workspace
/-!
# Iterators and workspaces with machine arithmetic

The rest of the arithmetic of the crate, as in `Verif/Model/Machine.lean`: the definitions are those of `LineIterator.lean`, `Token.lean`
and `Workspace.lean` with `addW` and `subW` for `+` and `-`. Functions without arithmetic are reused.
-/
namespace Scribe.Machine
variable [Word] (M : Mode)

/-! ## src/util/line_iterator.rs -/

/-- src/util/line_iterator.rs:41-49 (`self.line_end += c.len_utf8()`). -/
def lineScan : Text → Nat → R (Nat × Bool)
  | [], e => .ok (e, false)
  | c :: cs, e => do
    let e ← addW M e c.utf8Size
    if c = '\n' then return (e, true) else lineScan cs e

/-- src/util/line_iterator.rs:28-62 `next`. -/
def lineNext (it : LineIter) : R (Option (Nat × Text) × LineIter) :=
  if it.done then .ok (none, it) else do
    let rest ← strFrom it.data it.lineEnd
    let (lineEnd, trailing) ← lineScan M rest it.lineEnd
    let it' : LineIter := { it with lineStart := it.lineEnd, lineEnd := lineEnd }
    let line ← strSlice it'.data it'.lineStart it'.lineEnd
    if it'.outOfData && !trailing then .ok (some (it'.lineNumber, line), { it' with done := true })
    else do
      let number ← addW M it'.lineNumber 1
      .ok (some (it'.lineNumber, line), { it' with lineNumber := number })

/-- The results of `n` calls of `next`. -/
def lineRun : Nat → LineIter → R (List (Option (Nat × Text)))
  | 0, _ => .ok []
  | n + 1, it => do
    let (x, it') ← lineNext M it
    let xs ← lineRun n it'
    .ok (x :: xs)

/-! ## src/buffer/token/token_iterator.rs -/

section Tokens
variable {H : Highlighter} (S : Segmenter)

/-- src/buffer/token/token_iterator.rs:135-159 `parse_next_line`. -/
def parseNextLine (it : TokenIter H) : R (Except H.Err Unit × TokenIter H) := do
  let (next, lines) ← lineNext M it.lines
  let it := { it with lines := lines }
  match next with
  | some (number, line) =>
    match H.parse it.parser line with
    | (parser, .error e) => .ok (.error e, { it with parser := parser })
    | (parser, .ok events) =>
      .ok (.ok (), { it with
        parser := parser
        lineEvents := events
        currentLine := some line
        position := ⟨number, 0⟩
        byteOffset := 0 })
  | none => .ok (.ok (), { it with currentLine := none })

/-- src/buffer/token/token_iterator.rs:87-130. -/
def buildLoop (line : Text) (eol : Nat) : List (Nat × H.Op) → TokenIter H → R (Except H.Err (Option (Token H.Scopes)) × TokenIter H)
  | [], it => do
    let it := { it with lineEvents := [] }
    if it.byteOffset < eol then do
      let value ← strSlice line it.byteOffset eol
      .ok (.ok (some (.lexeme value it.scopes it.position)), { it with currentLine := none })
    else .ok (.ok none, { it with currentLine := none })
  | (offset, op) :: events, it => do
    let it := { it with lineEvents := events }
    if offset > it.byteOffset then do
      let value ← strSlice line it.byteOffset (min offset eol)
      let token := Token.lexeme value it.scopes it.position
      let o ← addW M it.position.offset (S.segs value).length
      let it := { it with position := ⟨it.position.line, o⟩, byteOffset := offset }
      match H.apply it.scopes op with
      | (scopes, some e) => .ok (.error e, { it with scopes := scopes })
      | (scopes, none) => .ok (.ok (some token), { it with scopes := scopes })
    else
      match H.apply it.scopes op with
      | (scopes, some e) => .ok (.error e, { it with scopes := scopes })
      | (scopes, none) => buildLoop line eol events { it with scopes := scopes }

/-- src/buffer/token/token_iterator.rs:81-85. -/
def endOfLine (line : Text) : R Nat :=
  if line.getLast? = some '\n' then subW M (blen line) 1 else .ok (blen line)

/-- src/buffer/token/token_iterator.rs:76-133 `build_next_token`. -/
def buildNextToken (it : TokenIter H) : R (Except H.Err (Option (Token H.Scopes)) × TokenIter H) :=
  match it.currentLine with
  | some line => do
    let eol ← endOfLine M line
    buildLoop M S line eol it.lineEvents it
  | none => .ok (.ok none, { it with currentLine := none })

/-- src/buffer/token/token_iterator.rs:44-74 `next_token` (and `next`, 162-168). -/
def tokenNext (it : TokenIter H) : R (Option (Token H.Scopes) × TokenIter H) := do
  let (result, it) ← buildNextToken M S it
  match result with
  | .error e => .ok (none, { it with error := some e })
  | .ok (some token) => .ok (some token, it)
  | .ok none => do
    let (parsed, it) ← parseNextLine M it
    match parsed with
    | .error e => .ok (none, { it with error := some e })
    | .ok () => .ok (if it.currentLine.isSome then some .newline else none, it)

/-- src/buffer/token/token_iterator.rs:21-42 `new`. -/
def tokenNew (H : Highlighter) (data : Text) : R (Except H.Err (TokenIter H)) := do
  let it : TokenIter H := {
    scopes := H.scopes, parser := H.parser, lines := LineIter.new data, currentLine := none, byteOffset := 0
    position := ⟨0, 0⟩, lineEvents := [], error := none }
  let (parsed, it) ← parseNextLine M it
  match parsed with
  | .error e => .ok (.error e)
  | .ok () => .ok (.ok it)

/-- The results of `n` calls of `next`, whatever they return. -/
def tokenNexts : Nat → TokenIter H → R (List (Option (Token H.Scopes)) × TokenIter H)
  | 0, it => .ok ([], it)
  | n + 1, it => do
    let (o, it) ← tokenNext M S it
    let (os, it) ← tokenNexts n it
    return (o :: os, it)

end Tokens

/-! ## src/workspace.rs -/

section Workspaces
variable {σ : Type} (A : Alloc)

/-- src/workspace.rs:66-86 `add_buffer`. -/
def addBuffer (w : Workspace σ) (buf : FileBuf σ) : R (Workspace σ) := do
  let buf := { buf with id := some w.nextId }
  let nextId ← addW M w.nextId 1
  let w := { w with nextId := nextId }
  let target ← match w.index with
    | some i => addW M i 1
    | none => .ok 0
  let buffers ← Workspace.vecInsert w.buffers target buf
  let (_, w) ← Workspace.selectBuffer A { w with buffers := buffers } target
  return w.addSyntax

/-- src/workspace.rs:111-120 `open_buffer`. -/
def openBuffer (clock : Nat) (w : Workspace σ) (atFind atRead atCanon : Fs) (path : Path) : R (Bool × Workspace σ) := do
  let (found, w) ← Workspace.selectBufferByPath A w atFind path
  if found then return (true, w)
  else
    match (FileBuf.fromFile A clock atRead atCanon path : Option (FileBuf σ)) with
    | none => return (false, w)
    | some buffer =>
      let w ← addBuffer M A w buffer
      return (true, w)

/-- src/workspace.rs:253-261 `previous_buffer`. -/
def previousBuffer (w : Workspace σ) : R (Workspace σ) := do
  match w.index with
  | none => return w
  | some index =>
    if index > 0 then
      let i ← subW M index 1
      let (_, w) ← Workspace.selectBuffer A w i
      return w
    else
      let last ← subW M w.buffers.length 1
      let (_, w) ← Workspace.selectBuffer A w last
      return w

/-- src/workspace.rs:288-296 `next_buffer`. -/
def nextBuffer (w : Workspace σ) : R (Workspace σ) := do
  match w.index with
  | none => return w
  | some index =>
    let last ← subW M w.buffers.length 1
    if index = last then
      let (_, w) ← Workspace.selectBuffer A w 0
      return w
    else
      let i ← addW M index 1
      let (_, w) ← Workspace.selectBuffer A w i
      return w

/-- One call. `close_current_buffer` (src/workspace.rs:214-226) computes with `saturating_sub` only. -/
def wsCall (w : Workspace σ) : Workspace.Call σ → R (Bool × Workspace σ)
  | .add b => do return (true, ← addBuffer M A w b)
  | .openPath clock f0 f1 f2 p => openBuffer M A clock w f0 f1 f2 p
  | .close => do return (true, ← Workspace.closeCurrentBuffer A w)
  | .next => do return (true, ← nextBuffer M A w)
  | .previous => do return (true, ← previousBuffer M A w)
  | .edit f => .ok (true, { w with current := w.current.map f })
  | .updateSyntax => .ok w.updateCurrentSyntax

/-- A sequence of calls. -/
def wsCalls (w : Workspace σ) : List (Workspace.Call σ) → R (Workspace σ)
  | [] => .ok w
  | c :: cs => do
    let (_, w) ← wsCall M A w c
    wsCalls w cs

end Workspaces
end Scribe.Machine
