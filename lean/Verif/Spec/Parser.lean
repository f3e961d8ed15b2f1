import Verif.Spec.Stream
/-! # What becomes of the tokens if a parser does not keep its contract -/
namespace Scribe.Spec
variable {H : Highlighter}

/-- The tokens of line `n` from byte `o` (column `col`) on, for any events; `left` is what is left of the line (without its newline), or `none` if `o` is
behind its end. At the end: the scopes after all events, an error (`some e`) or a panic (`none`). It panics at an event behind `o` if `o` is behind the end of
the line already, or if the event is inside of a character. -/
def lineRun (segs : Text → List Text) (n : Nat) : (o col : Nat) → H.Scopes → Option Text → List (Nat × H.Op) →
    List (Token H.Scopes) × Except (Option H.Err) H.Scopes
  | _, col, k, left, [] => (if left.getD [] = [] then [] else [.lexeme (left.getD []) k ⟨n, col⟩], .ok k)
  | o, col, k, left, (off, op) :: es =>
    if off ≤ o then
      match H.apply k op with
      | (_, some e) => ([], .error (some e))
      | (k', none) => lineRun segs n o col k' left es
    else
      match left with
      | none => ([], .error none)
      | some r =>
        let v := splitBytes (off - o) r
        if v.2 ≠ [] ∧ blen v.1 ≠ off - o then ([], .error none)
        else
          match H.apply k op with
          | (_, some e) => ([], .error (some e))
          | (k', none) =>
            let t := lineRun segs n off (col + (segs v.1).length) k' (if off - o ≤ blen r then some v.2 else none) es
            (.lexeme v.1 k ⟨n, col⟩ :: t.1, t.2)

/-- The tokens of these lines, the first with number `n`, a newline token before each, and how they end: well (`none`), with an error or with a panic. -/
def linesRun (segs : Text → List Text) : Nat → H.Scopes → H.Parser → List Text → List (Token H.Scopes) × Option (Option H.Err)
  | _, _, _, [] => ([], none)
  | n, k, p, l :: ls =>
    match H.parse p l with
    | (_, .error e) => ([], some (some e))
    | (p', .ok es) =>
      match lineRun segs n 0 0 k (some (l.filter (· != '\n'))) es with
      | (ts, .error e) => (.newline :: ts, some e)
      | (ts, .ok k') =>
        let r := linesRun segs (n + 1) k' p' ls
        (.newline :: ts ++ r.1, r.2)

/-- The tokens of a text with any highlighter: nothing if its first line cannot be parsed. -/
def tokenRun (segs : Text → List Text) (H : Highlighter) (text : Text) : Except H.Err (List (Token H.Scopes) × Option (Option H.Err)) :=
  match (H.parse H.parser ((fileLines text).headD [])).2 with
  | .error e => .error e
  | .ok _ =>
    let r := linesRun segs 0 H.scopes H.parser (fileLines text)
    .ok (r.1.tail, r.2)

/-- All that is needed of a parser: offsets are character boundaries of the line without its newline, or behind its end; and those behind its end are the same. -/
def OffsetsFit (H : Highlighter) : Prop :=
  ∀ p l p' es, H.parse p l = (p', .ok es) → ∀ e ∈ es,
    (∃ x y, l.filter (· != '\n') = x ++ y ∧ e.1 = blen x) ∨
    (blen (l.filter (· != '\n')) < e.1 ∧ ∀ e' ∈ es, blen (l.filter (· != '\n')) < e'.1 → e'.1 = e.1)

/-- Calling `next` gives these tokens, then it panics. -/
inductive PanicsAfter (S : Segmenter) : TokenIter H → List (Token H.Scopes) → Prop
  | now {it p} : TokenIter.next S it = .error p → PanicsAfter S it []
  | next {it it1 t ts} : TokenIter.next S it = .ok (some t, it1) → PanicsAfter S it1 ts → PanicsAfter S it (t :: ts)

/-- Calling `next` until it returns `None` or panics gives these tokens and ends so. -/
def Ends (S : Segmenter) (it : TokenIter H) (ts : List (Token H.Scopes)) : Option (Option H.Err) → Prop
  | none => ∃ it', TokenIter.Collects S it ts it' ∧ it'.error = none
  | some (some e) => ∃ it', TokenIter.Collects S it ts it' ∧ it'.error = some e
  | some none => PanicsAfter S it ts

end Scribe.Spec
