import Verif.Oracle.Desktop
import Verif.Spec.Dialogue
/-! # Executable forms of C98 -/
namespace Scribe.Oracle
open Spec Props

variable (S : Segmenter) (A : Alloc) (W : FileTree)

/-- The first `m` files are compared. -/
def o_C98_dialogue (s : Syntaxes Nat) (root : Path) (disk : Disk) (ls : List (Line Nat)) (m : Nat) : Bool :=
  someImp (Workspace.new (fsOf none (some root)) root (some s)) fun w0 =>
    let r := Desktop.talk S.segs A.grant s W w0.path ⟨noSheets, disk⟩ ls
    okAnd (Editor.talk S A W ⟨w0, disk⟩ ls) fun x => decide (x.1 = r.1) && (List.range m).all fun n => decide (x.2.disk n = r.2.disk n)

/-- A character that is an ordinary cluster on its own. -/
def aloneB (T : Uax29.Table) (t : Text) : Bool := t.all fun c => decide (Uax29.Ordinary T.cls [c])

def aloneLineB (T : Uax29.Table) : Line Nat → Bool
  | .deed (.cmd (.insert t)) | .deed (.cmd (.replace t)) | .deed (.cmd (.reload t)) => aloneB T t
  | _ => true

/-- The files have the contents `ts`. -/
def diskOf (ts : List Text) : Disk := fun n => (ts[n]?).map enc

/-- For the segmenter of the table, with two allocators. -/
def o_C98_same_plain (T : Uax29.Table) (A' : Alloc) (s : Syntaxes Nat) (root : Path) (ts : List Text) (ls : List (Line Nat)) (m : Nat) : Bool :=
  someImp (Workspace.new (fsOf none (some root)) root (some s)) fun w0 => imp ((ts.all (aloneB T) && ls.all (aloneLineB T)) = true) <|
    okAnd (Editor.talk S A W ⟨w0, diskOf ts⟩ ls) fun x => okAnd (Editor.talk S A' W ⟨w0, diskOf ts⟩ ls) fun y =>
      decide (x.1 = y.1) && (List.range m).all fun n => decide (x.2.disk n = y.2.disk n)

end Scribe.Oracle
