import Verif.Oracle.Rest
import Verif.Spec.Concurrent
/-! # Executable forms of C96 -/
namespace Scribe.Oracle
open Spec Props Buf

variable (S : Segmenter) (A : Alloc) (T : Uax29.Table)

def fitsB (t : Text) : Delta → Bool
  | .put p s => exists? S.segs t p && overB S T s
  | .cut p q => decide (AtOrBefore p q) && (exists? S.segs t p && exists? S.segs t q)

def fitsAllB : Text → List Delta → Bool
  | _, [] => true
  | t, e :: es => fitsB S T t e && fitsAllB (e.on S.segs t) es

def o_C96_two (b b' : Buf) (e f : Delta) : Bool :=
  okImp b.data.toStr fun t => imp (b'.data.toStr = .ok t ∧ overB S T t = true ∧ fitsB S T t e = true ∧ fitsB S T t f = true) <|
    match execAll S A b (e.calls ++ (f.against S.segs false e).calls), execAll S A b' (f.calls ++ (e.against S.segs true f).calls) with
    | .ok c, .ok c' => decide (c.data.toStr = .ok (Delta.merged S.segs e f t) ∧ c'.data.toStr = .ok (Delta.merged S.segs e f t))
    | _, _ => false

def o_C96_many (b b' : Buf) (es fs : List Delta) : Bool :=
  okImp b.data.toStr fun t => imp (b'.data.toStr = .ok t ∧ overB S T t = true ∧ fitsAllB S T t es = true ∧ fitsAllB S T t fs = true) <|
    let r := Delta.pastAll S.segs es fs
    match execAll S A b ((es ++ r.2).flatMap Delta.calls), execAll S A b' ((fs ++ r.1).flatMap Delta.calls) with
    | .ok c, .ok c' => decide (c.data.toStr = c'.data.toStr)
    | _, _ => false

end Scribe.Oracle
