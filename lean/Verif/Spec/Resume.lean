import Verif.Spec.Parser
/-! # What each call of a token iterator returns, also after errors -/
namespace Scribe.Spec
variable {H : Highlighter}

/-- The calls of `next` for line `n`, as in `lineRun`, but going on after errors: each gives a token or an error. An error of the scope stack takes the lexeme
before it along. At the end: the scopes, or `none` if the next call panics. -/
def lineCalls (segs : Text → List Text) (n : Nat) : (o col : Nat) → H.Scopes → Option Text → List (Nat × H.Op) →
    List (Except H.Err (Token H.Scopes)) × Option H.Scopes
  | _, col, k, left, [] => (if left.getD [] = [] then [] else [.ok (.lexeme (left.getD []) k ⟨n, col⟩)], some k)
  | o, col, k, left, (off, op) :: es =>
    if off ≤ o then
      let t := lineCalls segs n o col (H.apply k op).1 left es
      (((H.apply k op).2.map .error).toList ++ t.1, t.2)
    else
      match left with
      | none => ([], none)
      | some r =>
        let v := splitBytes (off - o) r
        if v.2 ≠ [] ∧ blen v.1 ≠ off - o then ([], none)
        else
          let t := lineCalls segs n off (col + (segs v.1).length) (H.apply k op).1 (if off - o ≤ blen r then some v.2 else none) es
          (((H.apply k op).2.elim (.ok (.lexeme v.1 k ⟨n, col⟩)) .error) :: t.1, t.2)

/-- The calls for these lines, the first with number `n`; and whether a panic ends them. A line that cannot be parsed takes one call and is passed over. -/
def linesCalls (segs : Text → List Text) : Nat → H.Scopes → H.Parser → List Text → List (Except H.Err (Token H.Scopes)) × Bool
  | _, _, _, [] => ([], false)
  | n, k, p, l :: ls =>
    match H.parse p l with
    | (p', .error e) =>
      let r := linesCalls segs (n + 1) k p' ls
      (.error e :: r.1, r.2)
    | (p', .ok es) =>
      match lineCalls segs n 0 0 k (some (l.filter (· != '\n'))) es with
      | (ts, none) => (.ok .newline :: ts, true)
      | (ts, some k') =>
        let r := linesCalls segs (n + 1) k' p' ls
        (.ok .newline :: ts ++ r.1, r.2)

/-- The calls for a text, if there is an iterator. -/
def callRun (segs : Text → List Text) (H : Highlighter) (text : Text) : Except H.Err (List (Except H.Err (Token H.Scopes)) × Bool) :=
  match (H.parse H.parser ((fileLines text).headD [])).2 with
  | .error e => .error e
  | .ok _ =>
    let r := linesCalls segs 0 H.scopes H.parser (fileLines text)
    .ok (r.1.tail, r.2)

/-- The last error so far. -/
def lastError : Option H.Err → List (Except H.Err (Token H.Scopes)) → Option H.Err
  | w, [] => w
  | w, .ok _ :: cs => lastError w cs
  | _, .error e :: cs => lastError (some e) cs

/-- What is seen of these calls: what `next` returns and what is in the field `error` after it. -/
def seen : Option H.Err → List (Except H.Err (Token H.Scopes)) → List (Option (Token H.Scopes) × Option H.Err)
  | _, [] => []
  | w, .ok t :: cs => (some t, w) :: seen w cs
  | _, .error e :: cs => (none, some e) :: seen (some e) cs

/-- `n` calls of `next`: what each returns and the field `error` after it. -/
def watch (S : Segmenter) : Nat → TokenIter H → R (List (Option (Token H.Scopes) × Option H.Err))
  | 0, _ => .ok []
  | n + 1, it => do
    let (o, it') ← TokenIter.next S it
    let os ← watch S n it'
    return (o, it'.error) :: os

end Scribe.Spec
