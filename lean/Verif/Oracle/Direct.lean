import Verif.Oracle.Rest
import Verif.Spec.Direct
/-! Executable forms of C84. -/
namespace Scribe.Oracle
open Props Shared
variable (S : Segmenter) (A : Alloc)

def isMove : Scribe.Buf.Cmd → Bool
  | .move _ => true
  | _ => false

/-- No guard alive. -/
def idleB (w : World Diary) : Bool := w.cells.all fun c => decide (c.readers = 0) && !c.writing

def o_C84_no_panic (xs : List (Act Diary)) (i : Nat) (m : Cursor.Move) : Bool :=
  okAnd (acts S A ⟨[], []⟩ [] xs) fun (bs, w) => idleB w && someImp bs[i]? fun b =>
    okAnd (Shared.Buf.text w b) (fun (t, w') => sameWorld w w' && someAnd w.cells[b.data]? fun k => decide (k.value.toStr = .ok t)) && okAnd (Shared.Buf.exec S A diary w b (.move m)) fun (_, w') => sameWorld w w'

def o_C84_edits_own_text (w : World Diary) (b : Shared.Buf Diary) (c : Scribe.Buf.Cmd) (q : Nat) : Bool :=
  imp (idleB w = true) <| imp (isMove c = false) <| someImp w.cells[b.data]? fun k =>
    okImp (Scribe.Buf.exec S A (b.byValue k.value) c) fun a' => okAnd (Shared.Buf.exec S A diary w b c) fun (b', w') =>
      decide (w'.cells[b'.data]? = some (.free a'.data)) && decide (b'.cursor.at_ = a'.cursor) && decide (b'.history = a'.history) &&
      decide (b'.group = a'.group) && imp (q < w.cells.length ∧ q ≠ b.data) (decide (w'.cells[q]? = w.cells[q]?)) &&
      (decide (b'.cursor.data = b.cursor.data) || decide (b'.cursor.data = b'.data))

def o_C84_moves_cursor_text (w : World Diary) (b : Shared.Buf Diary) (m : Cursor.Move) : Bool :=
  imp (idleB w = true) <| someImp w.cells[b.cursor.data]? fun k =>
    match Cursor.move S k.value b.cursor.at_ m, Shared.Buf.exec S A diary w b (.move m) with
    | .ok a, .ok (b', w') => sameWorld w w' && decide (b'.cursor = ⟨b.cursor.data, a⟩) && decide (b'.data = b.data) && decide (b'.history = b.history) && decide (b'.group = b.group)
    | .error e, .error e' => decide (e = e')
    | _, _ => false

def o_C84_replace_reattaches (w : World Diary) (b : Shared.Buf Diary) (t : Text) : Bool :=
  imp (idleB w = true) <| okImp (Shared.Buf.text w b) fun (old, _) => imp (t ≠ old) <| okImp (Shared.Buf.exec S A diary w b (.replace t)) fun (b', _) =>
    decide (b'.cursor.data = b'.data) && decide (b'.data = w.cells.length)

def sparesB (i : Nat) : Act Diary → Bool
  | .call j _ _ => decide (j ≠ i)
  | _ => true

def o_C84_history_spared (w : World Diary) (bs : List (Shared.Buf Diary)) (xs : List (Act Diary)) (i : Nat) : Bool :=
  imp (xs.all (sparesB i) = true) <| someImp bs[i]? fun b => okImp (acts S A w bs xs) fun (bs', _) =>
    match bs'[i]? with
    | some b' => decide (b'.data = b.data) && decide (b'.history = b.history) && decide (b'.group = b.group)
    | none => false

/-- For programs with callbacks that behave. -/
def o_C84_bookkeeping (xs : List (Act Diary)) (i : Nat) (c : Scribe.Buf.Cmd) : Bool :=
  imp (isMove c = false) <| okImp (acts S A ⟨[], []⟩ [] xs) fun (bs, w) => someImp bs[i]? fun b => imp (b.callback.isNone = true) <|
    match w.cells[b.data]? with
    | none => false
    | some k => okAnd k.value.toStr fun t => okAnd (Scribe.Buf.exec S A (b.byValue k.value) c) fun a' => okAnd (Shared.Buf.exec S A diary w b c) fun (b', w') =>
      decide (w'.cells[b'.data]? = some (.free a'.data)) && decide (b'.cursor.at_ = a'.cursor) &&
      decide (counts (b'.byValue a'.data) = (counts (b.byValue k.value)).step (SameText t c) c)

end Scribe.Oracle
