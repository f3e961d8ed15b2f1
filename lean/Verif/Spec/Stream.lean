import Verif.Spec.Token
/-! # The tokens of a text as a function of its lines -/
namespace Scribe.Spec
variable {H : Highlighter}

/-- The longest beginning of a text of at most `n` bytes, and the rest. -/
def splitBytes : Nat → Text → Text × Text
  | _, [] => ([], [])
  | n, c :: cs => if c.utf8Size ≤ n then (c :: (splitBytes (n - c.utf8Size) cs).1, (splitBytes (n - c.utf8Size) cs).2) else ([], c :: cs)

/-- The tokens of line `n` from byte `o` (column `col`) on, where `rest` is left of it (without its newline) and these events lie ahead: each event behind
`o` ends a lexeme there and changes the scopes after it; other events only change the scopes; what is left after the last event is a lexeme if it is not
empty. If a change fails the lexeme it ends is lost. With the scopes after all events. -/
def lineStream (segs : Text → List Text) (n : Nat) : (o col : Nat) → H.Scopes → Text → List (Nat × H.Op) → List (Token H.Scopes) × Except H.Err H.Scopes
  | _, col, k, rest, [] => (if rest = [] then [] else [.lexeme rest k ⟨n, col⟩], .ok k)
  | o, col, k, rest, (off, op) :: es =>
    match H.apply k op with
    | (_, some e) => ([], .error e)
    | (k', none) =>
      if off ≤ o then lineStream segs n o col k' rest es
      else
        let v := splitBytes (off - o) rest
        let r := lineStream segs n off (col + (segs v.1).length) k' v.2 es
        (.lexeme v.1 k ⟨n, col⟩ :: r.1, r.2)

/-- The tokens of these lines, of which the first has number `n`, with a newline token before each, and the error if there is one. -/
def streamFrom (segs : Text → List Text) : Nat → H.Scopes → H.Parser → List Text → List (Token H.Scopes) × Option H.Err
  | _, _, _, [] => ([], none)
  | n, k, p, l :: ls =>
    match H.parse p l with
    | (_, .error e) => ([], some e)
    | (p', .ok es) =>
      match lineStream segs n 0 0 k (l.filter (· != '\n')) es with
      | (ts, .error e) => (.newline :: ts, some e)
      | (ts, .ok k') =>
        let r := streamFrom segs (n + 1) k' p' ls
        (.newline :: ts ++ r.1, r.2)

/-- The tokens of a text: nothing if its first line cannot be parsed. -/
def stream (segs : Text → List Text) (H : Highlighter) (text : Text) : Except H.Err (List (Token H.Scopes) × Option H.Err) :=
  match (H.parse H.parser ((fileLines text).headD [])).2 with
  | .error e => .error e
  | .ok _ =>
    let r := streamFrom segs 0 H.scopes H.parser (fileLines text)
    .ok (r.1.tail, r.2)

/-- The first failure, if lines are parsed and their events applied one after the other. -/
def firstError (H : Highlighter) : H.Scopes → H.Parser → List Text → Option H.Err
  | _, _, [] => none
  | k, p, l :: ls =>
    match H.parse p l with
    | (_, .error e) => some e
    | (p', .ok es) =>
      match applyAll k es with
      | .error e => some e
      | .ok k' => firstError H k' p' ls
where
  /-- Apply the events of one line. -/
  applyAll (k : H.Scopes) : List (Nat × H.Op) → Except H.Err H.Scopes
    | [] => .ok k
    | (_, op) :: es =>
      match H.apply k op with
      | (_, some e) => .error e
      | (k', none) => applyAll k' es

end Scribe.Spec
