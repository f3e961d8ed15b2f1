import Verif.Oracle.Rest
import Verif.Spec.Guarded
/-! # Executable forms of C110 -/
namespace Scribe.Oracle
open Guarded
open Scribe.Buf (Cmd)

variable (S : Segmenter) (A : Alloc)

def o_C110_exact (g : Guard) (b : Buf) (c : Cmd) : Bool :=
  okImp (Buf.exec S A b c) fun b1 =>
    decide (exec S A g b c = .ok (if blocked g b c then .unwound (left b c) else .done b1 (if renews b c then .free else g)))

def o_C110_goes_on (g : Guard) (k : Nat) (t : Text) (ss : List Step) (c : Cmd) : Bool :=
  (okAnd (Guarded.session S A g (Buf.new A k) ss) fun r => (okAnd r.1.data.toStr fun _ => true) && okAnd (Buf.exec S A r.1 c) fun _ => true) &&
  (okAnd (Guarded.session S A g (Buf.fromContent A k t) ss) fun r => (okAnd r.1.data.toStr fun _ => true) && okAnd (Buf.exec S A r.1 c) fun _ => true)

def o_C110_unwound (g : Guard) (b : Buf) (c : Cmd) : Bool :=
  okImp (Buf.exec S A b c) fun _ => okImp (exec S A g b c) fun
    | .done _ _ => true
    | .unwound b' => decide (g ≠ .free) && decide (b'.data = b.data) && decide (b'.cursor = b.cursor) && decide (b'.log = b.log) &&
      decide (b'.callback = b.callback) && imp (c ≠ .undo ∧ c ≠ .redo) (decide (b' = b))

/-- The buffer with its gap buffer in a cell with these guards, between two other cells. -/
def placed (a : Buf) (n : Nat) (v : Bool) : Shared.World Unit × Shared.Buf Unit :=
  (⟨[.free a.data, ⟨a.data, n, v⟩, .free a.data], ()⟩, ⟨1, ⟨1, a.cursor⟩, a.history, a.group, none⟩)

def usesB (w : Shared.World Unit) (b : Shared.Buf Unit) (g : Guard) (a : Buf) : Bool :=
  match w.cells[b.data]? with
  | none => false
  | some c => decide (c.value = a.data) && decide (b.cursor = ⟨b.data, a.cursor⟩) && decide (b.history = a.history) &&
      decide (b.group = a.group) && b.callback.isNone && decide (a.callback = false) && decide (kind c = g)

def o_C110_cells (n : Nat) (v : Bool) (a : Buf) (c : Cmd) : Bool :=
  let a := { a with callback := false }
  imp (c ≠ .setCallback true) <| okImp (Buf.exec S A a c) fun _ =>
    let (w, b) := placed a n v
    okImp (exec S A (kind ⟨a.data, n, v⟩) a c) fun
      | .unwound _ => match Shared.Buf.exec S A (fun _ w => .ok w) w b c with
        | .error .borrow => true
        | _ => false
      | .done a' g' => okAnd (Shared.Buf.exec S A (fun _ w => .ok w) w b c) fun r => usesB r.2 r.1 g' a'

def o_C110_twice (g : Guard) (b : Buf) (s : Text) : Bool :=
  imp (g ≠ .free ∧ b.group = none) <| okImp (Buf.exec S A b (.insert s)) fun b1 =>
    decide ((Guarded.session S A .free b1 [.hold g, .call .undo, .hold .free, .call .redo]).map (fun r => r.1.data) =
      (Buf.exec S A b1 (.insert s)).map (fun r => r.data))

end Scribe.Oracle
