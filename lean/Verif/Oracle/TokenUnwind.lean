import Verif.Oracle.Resume
import Verif.Spec.TokenUnwind
/-! # Executable forms of C107 -/
namespace Scribe.Oracle
open Spec TokenUnwind

variable (S : Segmenter)

/-- The iterator after `n` calls, catching panics. -/
def aftergoing {H : Highlighter} (boom : H.Err → Bool) : Nat → TokenIter H → TokenIter H
  | 0, it => it
  | n + 1, it => aftergoing boom n (TokenUnwind.next S boom it).2

def o_C107_calls (H : Highlighter) [DecidableEq H.Scopes] [DecidableEq H.Err] (boom : H.Err → Bool) (data : Text) (n : Nat) : Bool :=
  match goRun S.segs H boom data, TokenUnwind.new boom data with
  | .error e, .unwound => boom e
  | .error e, .done (.error e') => !boom e && decide (e = e')
  | .ok cs, .done (.ok it) => decide (behold S boom n it = (noted none cs ++ List.replicate n (Out.done none, errorAfter none cs)).take n)
  | _, _ => false

def o_C107_same (H : Highlighter) [DecidableEq H.Scopes] [DecidableEq H.Err] (boom : H.Err → Bool) (calm : Bool) (data : Text) (n : Nat) : Bool :=
  let boom : H.Err → Bool := fun e => !calm && boom e
  match TokenUnwind.new boom data with
  | .done (.ok it) =>
    let it := aftergoing S boom n it
    match TokenUnwind.next S boom it, TokenIter.next S it with
    | (.done o, it1), .ok (o', it2) => decide (o = o') && decide (it1.scopes = it2.scopes ∧ it1.error = it2.error ∧ it1.byteOffset = it2.byteOffset ∧ it1.position = it2.position ∧
        it1.currentLine = it2.currentLine ∧ it1.lines = it2.lines ∧ it1.lineEvents.map (·.1) = it2.lineEvents.map (·.1))
    | (.done _, _), .error _ => false
    | (.unwound, _), .ok _ => !calm
    | (.unwound, _), .error _ => true
  | _ => true

def o_C107_forgotten (H : Highlighter) [DecidableEq H.Scopes] [DecidableEq H.Err] (data : Text) : Bool :=
  match callRun S.segs (cautious H) data, goRun S.segs H (fun _ => false) data with
  | .error e, .error e' => decide ((e : H.Err) = e')
  | .ok (cs, r), .ok ds => !r && decide (seen (H := H) none cs = seen (H := H) none (ds.filterMap Happens.calm))
  | _, _ => false

def o_C107_pieces (H : Highlighter) (boom : H.Err → Bool) (data : Text) (n i : Nat) : Bool :=
  match TokenUnwind.new boom data with
  | .done (.ok it) =>
    match (behold S boom n it)[i]? with
    | some (.done (some (.lexeme v _ p)), _) => someAnd (fileLines data)[p.line]? fun l =>
      (List.range (l.length + 1)).any fun j => v.isPrefixOf ((l.filter (· != '\n')).drop j)
    | _ => true
  | _ => true

end Scribe.Oracle
