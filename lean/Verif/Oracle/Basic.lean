import Verif.Spec.Calls
/-!
# Executable forms of the theorems: common part

For (almost) every theorem `C…` of `Verif/Props` there is a function `o_C…` to `Bool` in `Verif/Oracle` that evaluates the
claim on given inputs. The files with these functions import models and specifications only, no proofs. `Verif/Oracle/Sound*.lean` prove
that each of them returns `true` on all inputs, from the *statement* of the theorem alone. So a changed model for which such a function
returns `false` somewhere is a model for which the theorem is false; `tools/mutate.py` uses this to test the theorems
against wrong programs.
-/
namespace Scribe.Oracle
open Spec Props

/-- The call returns, with a result for which `P` holds. -/
@[macro_inline] def okAnd {α : Type} (r : R α) (P : α → Bool) : Bool :=
  match r with
  | .ok a => P a
  | .error _ => false

/-- If the call returns, `P` holds of the result. -/
@[macro_inline] def okImp {α : Type} (r : R α) (P : α → Bool) : Bool :=
  match r with
  | .ok a => P a
  | .error _ => true

/-- `P` holds of the value, if there is one. -/
@[macro_inline] def someImp {α : Type} (r : Option α) (P : α → Bool) : Bool :=
  match r with
  | some a => P a
  | none => true

/-- There is a value, and `P` holds of it. -/
@[macro_inline] def someAnd {α : Type} (r : Option α) (P : α → Bool) : Bool :=
  match r with
  | some a => P a
  | none => false

/-- Implication. -/
@[macro_inline] def imp (p : Prop) [Decidable p] (b : Bool) : Bool := if p then b else true

instance {α : Type} [DecidableEq α] : DecidableEq (R α)
  | .ok a, .ok b => if h : a = b then isTrue (by rw [h]) else isFalse (fun k => h (Except.ok.inj k))
  | .error a, .error b => if h : a = b then isTrue (by rw [h]) else isFalse (fun k => h (Except.error.inj k))
  | .ok _, .error _ => isFalse (fun k => by cases k)
  | .error _, .ok _ => isFalse (fun k => by cases k)

instance : DecidableRel Before := fun p q => by unfold Before; infer_instance
instance : DecidableRel AtOrBefore := fun p q => by unfold AtOrBefore; infer_instance

variable (segs : Text → List Text)

instance (t s : Text) (p : Position) : Decidable (CleanInsert segs t s p) :=
  match h : locate (segs t) p with
  | none => isTrue fun a b e => by rw [h] at e; cases e
  | some (a, b) =>
    if hc : segs (a.flatten ++ s ++ b.flatten) = a ++ segs s ++ b then isTrue fun a' b' e => by rw [h] at e; cases e; exact hc
    else isFalse fun k => hc (k a b h)

instance (t : Text) (p q : Position) : Decidable (CleanDelete segs t p q) :=
  match h : locate (segs t) p with
  | none => isTrue fun a b e => by rw [h] at e; cases e
  | some (a, b) =>
    if hc : segs (a.flatten ++ (afterEnd (segs t) q).flatten) = a ++ afterEnd (segs t) q then isTrue fun a' b' e => by rw [h] at e; cases e; exact hc
    else isFalse fun k => hc (k a b h)

instance (t : Text) (c : GapBuffer.Call) : Decidable (CleanCall segs t c) := by
  cases c <;> unfold CleanCall <;> infer_instance

instance decCleanCalls : (t : Text) → (cs : List GapBuffer.Call) → Decidable (CleanCalls segs t cs)
  | _, [] => isTrue trivial
  | t, c :: cs => by
    have := decCleanCalls (callText segs t c).2 cs
    unfold CleanCalls; infer_instance

instance (t : Text) (p q : Position) : Decidable (CleanRange segs t p q) := by unfold CleanRange; infer_instance

instance (d : Doc) (c : Buf.Cmd) : Decidable (CleanCmd segs d c) := by
  cases c <;> unfold CleanCmd <;> infer_instance

instance decCleanCmds : (d : Doc) → (cs : List Buf.Cmd) → Decidable (CleanCmds segs d cs)
  | _, [] => isTrue trivial
  | d, c :: cs => by
    have := decCleanCmds (d.step segs c) cs
    unfold CleanCmds; infer_instance

instance : DecidablePred Passive := fun c => by cases c <;> unfold Passive <;> infer_instance
instance : DecidablePred InGroup := fun c => by cases c <;> unfold InGroup <;> infer_instance
instance : DecidablePred IsEdit := fun c => by cases c <;> unfold IsEdit <;> infer_instance
instance : DecidablePred KeepsCursor := fun c => by cases c <;> unfold KeepsCursor <;> infer_instance
instance (t : Text) : DecidablePred (Edits t) := fun c => by cases c <;> unfold Edits <;> infer_instance
instance (d : Doc) : DecidablePred (SyncOk d) := fun c => by cases c <;> unfold SyncOk <;> infer_instance
instance decSyncOutside : (d : Doc) → (cs : List Buf.Cmd) → Decidable (SyncOutside segs d cs)
  | _, [] => isTrue trivial
  | d, c :: cs => by
    have := decSyncOutside (d.step segs c) cs
    unfold SyncOutside; infer_instance
instance (m : Cursor.Move) : Decidable (Vertical m) := by unfold Vertical; infer_instance
instance (t : Text) (p : Position) : Decidable (NothingAhead segs t p) := by unfold NothingAhead; infer_instance

/-- `PlaceIn` as a function. -/
def place? (cs : List Text) (p : Position) : Option (Text × Text) := (locate cs p).map fun x => (x.1.flatten, x.2.flatten)

variable (S : Segmenter)

/-- `Holds` as a function. -/
def holdsB (g : GapBuffer) (t : Text) : Bool :=
  let a := g.data.take g.gapStart
  let b := g.data.drop (g.gapStart + g.gapLength)
  decide (g.gapStart + g.gapLength ≤ g.data.length) && decide (enc (lossy a) = a) && decide (enc (lossy b) = b) &&
    decide (t = lossy a ++ lossy b) && decide (S.segs t = S.segs (lossy a) ++ S.segs (lossy b))

/-- Whether a text is CRLF only. -/
def crlfOnlyB : Text → Bool
  | [] => true
  | ['\n'] => false
  | c :: d :: t => if c = '\n' then false else if c = '\r' ∧ d = '\n' then crlfOnlyB t else crlfOnlyB (d :: t)
  | [_] => true

end Scribe.Oracle
