import Verif.Oracle.Rest
import Verif.Spec.Again
/-! # Executable forms of C116 -/
namespace Scribe.Oracle
open Spec TokenIter

variable (S : Segmenter)

def aboveB {K : Type} (n : Nat) : Token K → Bool
  | .newline => true
  | .lexeme _ _ p => decide (p.line < n)

/-- All tokens of a text, and the error at the end. -/
def allTokens (H : Highlighter) (t : Text) : Option (Except H.Err (List (Token H.Scopes) × Option H.Err)) :=
  match TokenIter.new H t with
  | .ok (.error e) => some (.error e)
  | .ok (.ok it) => match drain S (enoughCalls t) it with
    | .ok (some (ts, it')) => some (.ok (ts, it'.error))
    | _ => none
  | .error _ => none

/-- The same from a state on. -/
def resumed (H : Highlighter) (s : H.Scopes × H.Parser) (t : Text) : Option (Except H.Err (List (Token H.Scopes) × Option H.Err)) := allTokens S (H.resume s) t

/-- The tokens before those that resuming gives, if they are as they should be. -/
def tokensBefore (H : Highlighter) [DecidableEq H.Scopes] [DecidableEq H.Err] (y : Text) (s : H.Scopes × H.Parser) (c : Text) : Option (List (Token H.Scopes)) :=
  match allTokens S H (y ++ '\n' :: c), resumed S H s c with
  | some (.ok (all, err)), some (.error e) => if err = some e ∧ render all = y ∧ all.all (aboveB (y.count '\n' + 1)) = true then some all else none
  | some (.ok (all, err)), some (.ok (ts, e)) =>
    let pre := all.take (all.length - (ts.length + 1))
    if all = pre ++ .newline :: ts.map (lower (y.count '\n' + 1)) ∧ err = e ∧ render pre = y ∧ pre.all (aboveB (y.count '\n' + 1)) = true then some pre else none
  | _, _ => none

def o_C116_resume (H : Highlighter) [DecidableEq H.Scopes] [DecidableEq H.Err] (y c c' : Text) : Bool :=
  someImp (lastState H (y ++ ['\n'])) fun s => someAnd (tokensBefore S H y s c) fun pre => decide (tokensBefore S H y s c' = some pre)

def o_C116_patch (H : Highlighter) [DecidableEq H.Scopes] [DecidableEq H.Parser] [DecidableEq H.Err] (y y' c : Text) : Bool :=
  imp (lastState H (y ++ ['\n']) = lastState H (y' ++ ['\n']) ∧ (lastState H (y ++ ['\n'])).isSome = true) <|
    match allTokens S H (y ++ '\n' :: c), allTokens S H (y' ++ '\n' :: c) with
    | some (.ok (all, e)), some (.ok (all', e')) => decide (e = e') && (List.range (all.length + 1)).any fun i => decide (render (all.take i) = y) &&
      (List.range (all'.length + 1)).any fun j => decide (render (all'.take j) = y') &&
        decide ((all.drop i).map (lower (y'.count '\n' + 1)) = (all'.drop j).map (lower (y.count '\n' + 1)))
    | _, _ => false

/-- The state from a state on. -/
def resumedState (H : Highlighter) (s : H.Scopes × H.Parser) (z : Text) : Option (H.Scopes × H.Parser) := lastState (H.resume s) z

def o_C116_states (H : Highlighter) [DecidableEq H.Scopes] [DecidableEq H.Parser] (y z : Text) : Bool :=
  decide (lastState H (y ++ '\n' :: z) = (lastState H (y ++ ['\n'])).bind fun s => resumedState H s z)

end Scribe.Oracle
