import Verif.Model.Shared
/-!
# Vocabulary for shared gap buffers
-/
namespace Scribe.Shared
variable {ξ : Type}

/-- The bytes outside the gap are encoded text on each side (what C02 says of every gap buffer made through its API). -/
def WellFormed (g : GapBuffer) : Prop :=
  ∃ pre gap post, g.data = enc pre ++ gap ++ enc post ∧ g.gapStart = blen pre ∧ g.gapLength = gap.length

/-- No guard is alive. -/
def Idle (w : World ξ) : Prop := ∀ c ∈ w.cells, c.readers = 0 ∧ c.writing = false

/-- No guard is alive and every gap buffer is well formed. -/
def Sound (w : World ξ) : Prop := Idle w ∧ ∀ c ∈ w.cells, WellFormed c.value

/-- A callback that may do anything with gap buffers, including editing the one it is notified about, but does not panic, does not keep guards
and does not corrupt gap buffers. Nothing is said about how it behaves while a guard is alive. -/
def Behaves (f : Callback ξ) : Prop :=
  ∀ p w, Sound w → ∃ w', f p w = .ok w' ∧ Sound w' ∧ w.cells.length ≤ w'.cells.length

/-- A callback that only looks at the gap buffers; `eff` is what it does otherwise. -/
def Looks (f : Callback ξ) (eff : Position → List Cell → ξ → ξ) : Prop :=
  ∀ p w, Idle w → f p w = .ok { w with ext := eff p w.cells w.ext }

/-- `b` and its cursor share one cell, which no guard borrows, and are otherwise the buffer `a`. -/
structure Own (w : World ξ) (f : Callback ξ) (b : Buf ξ) (a : Scribe.Buf) : Prop where
  idle : Idle w
  cell : w.cells[b.data]? = some (.free a.data)
  shared : b.cursor.data = b.data
  cursor : b.cursor.at_ = a.cursor
  history : b.history = a.history
  group : b.group = a.group
  callback : b.callback = if a.callback then some f else none

/-- A buffer that was made through the API: new or loaded, then any calls. -/
def Made (S : Segmenter) (A : Alloc) (a : Scribe.Buf) : Prop :=
  ∃ k cs, Scribe.Buf.execAll S A (Scribe.Buf.new A k) cs = .ok a ∨ ∃ t, Scribe.Buf.execAll S A (Scribe.Buf.fromContent A k t) cs = .ok a

/-- Calls on several buffers: load a new one, or call the `i`-th. -/
inductive Many where
  | load (k : Nat) (t : Text)
  | at (i : Nat) (c : Scribe.Buf.Cmd)

/-- On buffers with pointers, in one world. -/
def many (S : Segmenter) (A : Alloc) (f : Callback ξ) (w : World ξ) (bs : List (Buf ξ)) : List Many → R (List (Buf ξ) × World ξ)
  | [] => .ok (bs, w)
  | .load k t :: ms => many S A f (Buf.fromContent A w k t).2 (bs ++ [(Buf.fromContent A w k t).1]) ms
  | .at i c :: ms =>
    match bs[i]? with
    | none => many S A f w bs ms
    | some b => do
      let (b, w) ← Buf.exec S A f w b c
      many S A f w (bs.set i b) ms

/-- On buffers by value. -/
def manyByValue (S : Segmenter) (A : Alloc) (as : List Scribe.Buf) : List Many → R (List Scribe.Buf)
  | [] => .ok as
  | .load k t :: ms => manyByValue S A (as ++ [Scribe.Buf.fromContent A k t]) ms
  | .at i c :: ms =>
    match as[i]? with
    | none => manyByValue S A as ms
    | some a => do
      let a ← Scribe.Buf.exec S A a c
      manyByValue S A (as.set i a) ms

/-- Calls that edit in place (never `replace`). -/
def InPlace : Scribe.Buf.Cmd → Prop
  | .insert _ | .delete | .deleteRange _ _ | .startGroup | .endGroup | .move _ | .setCursor _ | .setCallback _ | .saved => True
  | _ => False

end Scribe.Shared
