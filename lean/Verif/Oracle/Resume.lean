import Verif.Oracle.Parser
import Verif.Spec.Resume
/-! # Executable forms of C103 -/
namespace Scribe.Oracle
open Spec

variable (S : Segmenter)

def o_C103_calls (H : Highlighter) [DecidableEq H.Scopes] [DecidableEq H.Err] (data : Text) (n : Nat) : Bool :=
  okAnd (TokenIter.new H data) fun r =>
    match r, callRun S.segs H data with
    | .error e, .error e' => decide (e = e')
    | .ok it, .ok (cs, panics) =>
      match watch S n it with
      | .error _ => panics && decide (cs.length < n)
      | .ok os => (!panics || decide (n ≤ cs.length)) &&
        decide (os = (seen none cs ++ List.replicate (n - cs.length) (none, lastError none cs)).take n)
    | _, _ => false

def o_C103_pieces (H : Highlighter) (data : Text) (n i : Nat) : Bool :=
  okAnd (TokenIter.new H data) fun r =>
    match r with
    | .error _ => true
    | .ok it =>
      match watch S n it with
      | .error _ => true
      | .ok os =>
        match os[i]? with
        | some (some (.lexeme v _ p), _) => someAnd (fileLines data)[p.line]? fun l => 
          (List.range (l.length + 1)).any fun j => v.isPrefixOf ((l.filter (· != '\n')).drop j)
        | _ => true

end Scribe.Oracle
