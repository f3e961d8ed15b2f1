import Verif.Model.Convert
/-! # Calls whose argument cannot be converted are no calls -/
namespace Scribe.Spec
open Unwind
open Scribe.Buf (Cmd)

/-- `as_ref` and `into` give the same string if both give one. -/
def Agrees : ConvCmd → Prop
  | .replace v => ∀ s s', v.asRef = some s → v.into = some s' → s = s'
  | _ => True

/-- The call with the string itself; none if there is no string. -/
def plainCall : ConvCmd → Option Cmd
  | .cmd c => some c
  | .insert v => v.into.map .insert
  | .replace v => match v.asRef, v.into with
    | some _, some s => some (.replace s)
    | _, _ => none

/-- Whether the program has to catch the panic of a conversion, if the contents are `t`. -/
def panics (t : Text) : ConvCmd → Bool
  | .cmd _ => false
  | .insert v => v.into.isNone
  | .replace v => match v.asRef, v.into with
    | none, _ => true
    | some s, none => decide (s ≠ t)
    | some _, some _ => false

end Scribe.Spec
