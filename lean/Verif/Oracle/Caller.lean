import Verif.Oracle.Rest
import Verif.Spec.Caller
/-! # Executable forms of C104 -/
namespace Scribe.Oracle
open Spec Shared

variable (S : Segmenter) (A : Alloc)

/-- What there is to see of a buffer and the cells. -/
def argView {ξ : Type} (x : Shared.Buf ξ × World ξ) : (Ptr × Cur × History × Option (List SOp)) × List Cell :=
  ((x.1.data, x.1.cursor, x.1.history, x.1.group), x.2.cells)

/-- The same outcome. -/
def sameArg {ξ : Type} : R (Shared.Buf ξ × World ξ) → R (Shared.Buf ξ × World ξ) → Bool
  | .ok x, .ok y => decide ((argView x).1 = (argView y).1) && decide ((argView x).2 = (argView y).2)
  | .error e, .error e' => decide (e = e')
  | _, _ => false

/-- A buffer with the text `t` and the cursor set to `p`. -/
def argBuf (k : Nat) (t : Text) (p : Position) : Shared.Buf Unit × World Unit :=
  let (b, w) := Shared.Buf.fromContent A ⟨[], ()⟩ k t
  ({ b with cursor := { b.cursor with at_ := { b.cursor.at_ with position := p } } }, w)

def o_C104_strings (k : Nat) (t : Text) (p : Position) (s : Text) : Bool :=
  let (b, w) := argBuf A k t p
  sameArg (Shared.Buf.insertArg S A w b (.two s s)) (Shared.Buf.insert S A w b s) &&
    sameArg (Shared.Buf.replaceArg S A w b (.two s s)) (Shared.Buf.replace S A w b s)

/-- For callbacks and arguments that behave. -/
def o_C104_no_panic (f : Callback Diary) (k : Nat) (t : Text) (cs : List (Shared.Buf.ArgCmd Diary)) : Bool :=
  okAnd (Shared.Buf.execArgs S A f (Shared.Buf.fromContent A ⟨[], []⟩ k t).2 (Shared.Buf.fromContent A ⟨[], []⟩ k t).1 cs)
    (fun (b, w') => okAnd (Shared.Buf.text w' b) fun (_, w'') => sameWorld w' w'' && w'.cells.all fun c => decide (c.readers = 0) && !c.writing)

def o_C104_insert (k : Nat) (t : Text) (p : Position) (x s : Text) : Bool :=
  let (b, w) := argBuf A k t p
  let u := insertAt S.segs t x ⟨0, 0⟩
  imp (CleanInsert S.segs t x ⟨0, 0⟩) <|
    okAnd (Shared.Buf.insertArg S A w b (.edits S A [] x [] s)) fun (b2, w2) =>
      okAnd (Shared.Buf.text w2 b2) (fun y => decide (y.1 = insertAt S.segs u s p)) &&
      imp (CleanInsert S.segs u s p) (imp (['\r', '\n'] ∉ S.segs s) <|
        okAnd (Shared.Buf.undo S A w2 b2) fun (b3, w3) => okAnd (Shared.Buf.text w3 b3) fun y => decide (y.1 = u))

def o_C104_replace (k : Nat) (t : Text) (p : Position) (x y said given : Text) : Bool :=
  let (b, w) := argBuf A k t p
  let u := insertAt S.segs t x ⟨0, 0⟩
  imp (CleanInsert S.segs t x ⟨0, 0⟩) <|
    okAnd (Shared.Buf.replaceArg S A w b (.edits S A x y said given)) fun (b2, w2) =>
      if said = t then decide (b2.history = b.history) && decide (b2.cursor = b.cursor) && okAnd (Shared.Buf.text w2 b2) fun z => decide (z.1 = u)
      else decide (b2.history = b.history.add (.simple (.replace u given))) && okAnd (Shared.Buf.text w2 b2) (fun z => decide (z.1 = given)) &&
        okAnd (Shared.Buf.undo S A w2 b2) fun (b3, w3) => okAnd (Shared.Buf.text w3 b3) fun z => decide (z.1 = u)

end Scribe.Oracle
