import Verif.Oracle.Unwind
import Verif.Spec.Convert
/-! # Executable forms of C119 -/
namespace Scribe.Oracle
open Spec Unwind
open Scribe.Buf (Cmd)

variable (S : Segmenter) (A : Alloc) (fate : Fate)

def agreesB : ConvCmd → Bool
  | .replace ⟨some s, some s'⟩ => decide (s = s')
  | _ => true

def o_C119_untouched (b : Buf) (c : ConvCmd) : Bool :=
  okImp b.data.toStr fun t => imp (panics t c = true) (decide (execConv S A fate b c = .ok (.unwound b)))

def o_C119_converted (b : Buf) (c : ConvCmd) : Bool :=
  okImp b.data.toStr fun _ => imp (agreesB c = true) <|
    match plainCall c with
    | some c' => decide (execConv S A fate b c = exec S A fate b c')
    | none => true

def o_C119_unneeded (b : Buf) (v : Conv) : Bool :=
  okImp b.data.toStr fun t => imp (v.asRef = some t) (decide (execConv S A fate b (.replace v) = .ok (.done b)))

def o_C119_session (k : Nat) (t : Option Text) (cs : List ConvCmd) : Bool :=
  let b := match t with | some t => Buf.fromContent A k t | none => Buf.new A k
  imp (cs.all agreesB = true) <|
    decide (sessionConv S A fate b cs = Unwind.session S A fate b (cs.filterMap plainCall)) && okAnd (sessionConv S A fate b cs) fun b' => okAnd b'.data.toStr fun _ => true

end Scribe.Oracle
