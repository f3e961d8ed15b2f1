import Verif.Oracle.Rest
import Verif.Spec.Cache
/-! # Executable forms of C91 -/
namespace Scribe.Oracle
open Spec Props Buf

variable (S : Segmenter) (A : Alloc)

/-- Every value, the text itself here, is the right one. -/
def rightB (t : Text) (c : Cache Text) : Bool := c.all fun e => decide (beforeLine S.segs t e.1 = some e.2)

def o_C91_cache (b : Buf) (d : Doc) (as : List Turn) : Bool :=
  imp (b.callback = true) <| imp (∀ c ∈ Turn.calls as, ∀ v ∈ [true, false], c ≠ .setCallback v) <| imp (CleanCmds S.segs d (Turn.calls as)) <|
    okAnd (turns S A id (b, []) as) fun (b', c') => decide (execAll S A b (Turn.calls as) = .ok b') &&
      okAnd b'.data.toStr fun t' => rightB S t' c'

def o_C91_tokens (H : Highlighter) [DecidableEq H.Scopes] [DecidableEq H.Err] (p x x' : Text) (n : Nat) : Bool :=
  okAnd (TokenIter.new H (p ++ '\n' :: x)) fun r => okAnd (TokenIter.new H (p ++ '\n' :: x')) fun r' =>
    match r, r' with
    | .error e, .error e' => decide (e = e')
    | .ok it, .ok it' => okImp (drain S n it) fun r => someImp r fun r => okImp (drain S n it') fun r' => someImp r' fun r' =>
      ((List.range (r.1.length + 1)).any fun i => decide (render (r.1.take i) = p) && decide (r'.1.take i = r.1.take i)) ||
      (decide (r.1 = r'.1) && decide (r.2.error = r'.2.error) && r.2.error.isSome)
    | _, _ => false

end Scribe.Oracle
