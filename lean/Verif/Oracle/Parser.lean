import Verif.Oracle.Stream
import Verif.Spec.Parser
/-! # Executable forms of C102 -/
namespace Scribe.Oracle
open Spec

variable (S : Segmenter)

/-- All tokens, if there are fewer than the bound, and how they end. -/
def drainAny {H : Highlighter} : Nat → TokenIter H → Option (List (Token H.Scopes) × Option (Option H.Err))
  | 0, _ => none
  | n + 1, it =>
    match TokenIter.next S it with
    | .error _ => some ([], some none)
    | .ok (none, it') => some ([], it'.error.map some)
    | .ok (some t, it') => (drainAny n it').map fun r => (t :: r.1, r.2)

def o_C102_any (H : Highlighter) [DecidableEq H.Scopes] [DecidableEq H.Err] (data : Text) : Bool :=
  okAnd (TokenIter.new H data) fun r =>
    match r, tokenRun S.segs H data with
    | .error e, .error e' => decide (e = e')
    | .ok it, .ok (ts, err) => decide (drainAny S (enoughCalls data + 1) it = some (ts, err))
    | _, _ => false

def o_C102_prefix (H : Highlighter) (data : Text) (i : Nat) : Bool :=
  okAnd (TokenIter.new H data) fun r =>
    match r with
    | .error _ => true
    | .ok it => someAnd (drainAny S (enoughCalls data + 1) it) fun r =>
      (render r.1).isPrefixOf data && (r.2.isSome || decide (render r.1 = data)) &&
      match r.1[i]? with
      | some (.lexeme _ _ p) => decide (p = posAfter S.segs (r.1.take i))
      | _ => true

end Scribe.Oracle
