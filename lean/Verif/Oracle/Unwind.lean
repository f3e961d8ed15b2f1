import Verif.Oracle.Rest
import Verif.Spec.Unwind
/-! # Executable forms of C90 -/
namespace Scribe.Oracle
open Spec Props Unwind
open Scribe.Buf (Cmd)

variable (S : Segmenter) (A : Alloc) (fate : Fate)

def o_C90_goes_on (k : Nat) (t : Text) (cs : List Cmd) : Bool :=
  (okAnd (Unwind.session S A fate (Buf.new A k) cs) fun b => okAnd b.data.toStr fun _ => true) &&
  (okAnd (Unwind.session S A fate (Buf.fromContent A k t) cs) fun b => okAnd b.data.toStr fun _ => true)

def o_C90_returned (b : Buf) (c : Cmd) : Bool :=
  okImp (exec S A fate b c) fun
    | .done b' => decide (Buf.exec S A b c = .ok b')
    | .unwound _ => true

def o_C90_quiet (b : Buf) (c : Cmd) : Bool :=
  decide (exec S A (fun _ => false) b c = (Buf.exec S A b c).map .done) &&
  imp (b.callback = false) (decide (exec S A fate b c = (Buf.exec S A b c).map .done))

def editsB : Cmd → Bool
  | .insert _ | .delete | .deleteRange _ _ | .replace _ | .reload _ => true
  | _ => false

/-- Contents, cursor and reports of one are those of the other. -/
def looksB (x : R Buf) (b' : Buf) : Bool :=
  okAnd x fun b1 => decide (b'.data = b1.data) && decide (b'.cursor = b1.cursor) && decide (b'.log = b1.log)

def o_C90_unwound_edit (b : Buf) (c : Cmd) : Bool :=
  okImp (exec S A fate b c) fun
    | .done _ => true
    | .unwound b' => imp (editsB c = true)
      (looksB (Buf.exec S A b c) b' && decide (b'.history = b.history) && decide (b'.group = b.group) && decide (b'.modified = b.modified))

def o_C90_only_edits (b : Buf) (c : Cmd) : Bool :=
  okImp (exec S A fate b c) fun
    | .done _ => true
    | .unwound _ => editsB c || decide (c = .undo) || decide (c = .redo)

def o_C90_reports (b : Buf) (c : Cmd) : Bool :=
  okImp (exec S A fate b c) fun
    | .done b' => decide (b'.log.take b.log.length = b.log) &&
      (List.range (b'.log.length - b.log.length)).all fun i => !fate (b.log.length + i)
    | .unwound b' => decide (b'.log.take b.log.length = b.log) && decide (b.log.length < b'.log.length) && fate (b'.log.length - 1) &&
      (List.range (b'.log.length - b.log.length - 1)).all fun i => !fate (b.log.length + i)

def o_C90_unwound_undo (b : Buf) : Bool :=
  okImp (exec S A fate b .undo) fun
    | .done _ => true
    | .unwound b' => decide (b'.group = none) && decide (b'.history = undoneHistory b) &&
      match undone b with
      | some (.simple _) => decide (Buf.exec S A b .undo = .ok b')
      | some (.group ops) => (List.range ops.length).any fun n =>
          looksB (Buf.exec S A { b with group := some (ops.drop n) } .undo) b'
      | none => false

def o_C90_unwound_redo (b : Buf) : Bool :=
  okImp (exec S A fate b .redo) fun
    | .done _ => true
    | .unwound b' => decide (b'.group = b.group) && decide (b'.history = b.history.forth.2) &&
      match b.history.next.head? with
      | some (.simple _) => decide (Buf.exec S A b .redo = .ok b')
      | some (.group ops) => (List.range ops.length).any fun n =>
          looksB (Buf.exec S A { b with history := { b.history with next := [.group (ops.take (n + 1))] } } .redo) b'
      | none => false

end Scribe.Oracle
