import Verif.Oracle.Rest
import Verif.Spec.Stream
/-! # Executable forms of C101 -/
namespace Scribe.Oracle
open Spec

variable (S : Segmenter)

def o_C101_stream (H : Highlighter) [DecidableEq H.Scopes] [DecidableEq H.Err] (data : Text) : Bool :=
  okAnd (TokenIter.new H data) fun r =>
    match r, stream S.segs H data with
    | .error e, .error e' => decide (e = e')
    | .ok it, .ok (ts, err) => okAnd (drain S (enoughCalls data) it) fun r => someAnd r fun r => decide (r.1 = ts) && decide (r.2.error = err)
    | _, _ => false

def o_C101_error (H : Highlighter) [DecidableEq H.Err] (data : Text) : Bool :=
  okAnd (TokenIter.new H data) fun r =>
    match r with
    | .error e => decide (firstError H H.scopes H.parser (fileLines data) = some e)
    | .ok it => okAnd (drain S (enoughCalls data) it) fun r => someAnd r fun r => decide (r.2.error = firstError H H.scopes H.parser (fileLines data))

end Scribe.Oracle
