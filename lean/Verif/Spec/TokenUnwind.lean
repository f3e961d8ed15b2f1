import Verif.Spec.Resume
import Verif.Model.TokenUnwind
/-! # What each call of a token iterator gives if panics are caught -/
namespace Scribe.Spec
open TokenUnwind (Out)
variable {H : Highlighter}

/-- One call: it gives a token, or `None` and an error, or panics. -/
inductive Happens (H : Highlighter) where
  | token (t : Token H.Scopes)
  | fails (e : H.Err)
  | panics

/-- `syntect` gave `e` (`boom e`: it panicked). -/
def Happens.of (boom : H.Err → Bool) (e : H.Err) : Happens H := if boom e then .panics else .fails e

/-- The calls for line `n`, as in `lineCalls`, but going on after panics: an event where the line cannot be cut costs one panic and is forgotten. At the end: the scopes. -/
def lineGoes (boom : H.Err → Bool) (segs : Text → List Text) (n : Nat) : (o col : Nat) → H.Scopes → Option Text → List (Nat × H.Op) →
    List (Happens H) × H.Scopes
  | _, col, k, left, [] => (if left.getD [] = [] then [] else [.token (.lexeme (left.getD []) k ⟨n, col⟩)], k)
  | o, col, k, left, (off, op) :: es =>
    if off ≤ o then
      let t := lineGoes boom segs n o col (H.apply k op).1 left es
      (((H.apply k op).2.map (Happens.of boom)).toList ++ t.1, t.2)
    else
      match left with
      | none =>
        let t := lineGoes boom segs n o col k none es
        (.panics :: t.1, t.2)
      | some r =>
        let v := splitBytes (off - o) r
        if v.2 ≠ [] ∧ blen v.1 ≠ off - o then
          let t := lineGoes boom segs n o col k (some r) es
          (.panics :: t.1, t.2)
        else
          let t := lineGoes boom segs n off (col + (segs v.1).length) (H.apply k op).1 (if off - o ≤ blen r then some v.2 else none) es
          (((H.apply k op).2.elim (.token (.lexeme v.1 k ⟨n, col⟩)) (Happens.of boom)) :: t.1, t.2)

/-- The calls for these lines, the first with number `n`. A line at which the parser fails or panics takes one call and is passed over. -/
def linesGo (boom : H.Err → Bool) (segs : Text → List Text) : Nat → H.Scopes → H.Parser → List Text → List (Happens H)
  | _, _, _, [] => []
  | n, k, p, l :: ls =>
    match H.parse p l with
    | (p', .error e) => .of boom e :: linesGo boom segs (n + 1) k p' ls
    | (p', .ok es) =>
      let t := lineGoes boom segs n 0 0 k (some (l.filter (· != '\n'))) es
      .token .newline :: t.1 ++ linesGo boom segs (n + 1) t.2 p' ls

/-- The calls for a text, if there is an iterator. -/
def goRun (segs : Text → List Text) (H : Highlighter) (boom : H.Err → Bool) (text : Text) : Except H.Err (List (Happens H)) :=
  match (H.parse H.parser ((fileLines text).headD [])).2 with
  | .error e => .error e
  | .ok _ => .ok (linesGo boom segs 0 H.scopes H.parser (fileLines text)).tail

/-- The last error so far; a panic leaves it. -/
def errorAfter : Option H.Err → List (Happens H) → Option H.Err
  | w, [] => w
  | w, .token _ :: cs => errorAfter w cs
  | _, .fails e :: cs => errorAfter (some e) cs
  | w, .panics :: cs => errorAfter w cs

/-- What is seen of these calls: how `next` ends and what is in the field `error` after it. -/
def noted : Option H.Err → List (Happens H) → List (Out (Option (Token H.Scopes)) × Option H.Err)
  | _, [] => []
  | w, .token t :: cs => (.done (some t), w) :: noted w cs
  | _, .fails e :: cs => (.done none, some e) :: noted (some e) cs
  | w, .panics :: cs => (.unwound, w) :: noted w cs

/-- `n` calls of `next`, catching panics: how each ends and the field `error` after it. -/
def behold (S : Segmenter) (boom : H.Err → Bool) : Nat → TokenIter H → List (Out (Option (Token H.Scopes)) × Option H.Err)
  | 0, _ => []
  | n + 1, it =>
    let r := TokenUnwind.next S boom it
    (r.1, r.2.error) :: behold S boom n r.2

/-- What is left if panics are not looked at. -/
def Happens.calm : Happens H → Option (Except H.Err (Token H.Scopes))
  | .token t => some (.ok t)
  | .fails e => some (.error e)
  | .panics => none

/-- The events of a line (without its newline) at which it can be cut: those at or before the last cut `o`, those at a character boundary, and those behind the end,
unless the last cut was behind the end. -/
def cuts (line : Text) : Nat → List (Nat × H.Op) → List (Nat × H.Op)
  | _, [] => []
  | o, e :: es =>
    if e.1 ≤ o then e :: cuts line o es
    else if o ≤ blen line ∧ (blen line ≤ e.1 ∨ ∃ i, i ≤ line.length ∧ blen (line.take i) = e.1) then e :: cuts line e.1 es
    else cuts line o es

/-- The same highlighter, with a parser that does not report the other events. -/
abbrev cautious (H : Highlighter) : Highlighter where
  Parser := H.Parser
  Scopes := H.Scopes
  Op := H.Op
  Err := H.Err
  parser := H.parser
  scopes := H.scopes
  parse p l :=
    match H.parse p l with
    | (p', .ok es) => (p', .ok (cuts (H := H) (l.filter (· != '\n')) 0 es))
    | (p', .error e) => (p', .error e)
  apply := H.apply

end Scribe.Spec
