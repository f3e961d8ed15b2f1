import Verif.Oracle.Program
import Verif.Oracle.Editor
import Verif.Spec.Desktop
/-! # Executable forms of C87 -/
namespace Scribe.Oracle
open Spec Props

variable (S : Segmenter) (A : Alloc) (W : FileTree)

/-- The first `m` files are compared, and the positions `ps`. -/
def o_C87_program (s : Syntaxes Nat) (root : Path) (disk : Disk) (as : List (Deed Nat)) (ps : List Position) (m : Nat) : Bool :=
  someImp (Workspace.new (fsOf none (some root)) root (some s)) fun w0 =>
    let d := Desktop.steps S.segs A.grant s W ⟨noSheets, disk⟩ as
    let t := d.docs.tabs
    okAnd (Editor.steps S A W ⟨w0, disk⟩ as) fun e =>
      (List.range m).all (fun n => decide (e.disk n = d.disk n)) &&
      decide (e.ws.currentBufferIndex = (if t.items.isEmpty then none else some t.sel)) &&
      decide (e.ws.current = (contents e.ws)[t.sel]?) && pairwiseB (showsB S ps) (contents e.ws) t.items &&
      decide (e.ws.bufferPaths = t.items.map (fun x => x.path.map fun p => if w0.path <+: p then p.drop w0.path.length else p))

def savesB : Deed Nat → Bool
  | .save _ | .saveAs _ _ => true
  | _ => false

theorem savesB_iff (a : Deed Nat) : savesB a = true ↔ Saves a := by cases a <;> simp [savesB, Saves]

def o_C87_only_saves (s : Syntaxes Nat) (root : Path) (disk : Disk) (as : List (Deed Nat)) (a : Deed Nat) (m : Nat) : Bool :=
  someImp (Workspace.new (fsOf none (some root)) root (some s)) fun w0 =>
    okImp (Editor.steps S A W ⟨w0, disk⟩ as) fun e => savesB a || okImp (e.step S A W a) fun e' =>
      (List.range m).all fun n => decide (e'.disk n = e.disk n)

def o_C87_files (s : Syntaxes Nat) (root : Path) (disk : Disk) (as : List (Deed Nat)) (n : Nat) : Bool :=
  someImp (Workspace.new (fsOf none (some root)) root (some s)) fun w0 =>
    okImp (Editor.steps S A W ⟨w0, disk⟩ as) fun e => decide (e.disk n = disk n) ||
      (List.range as.length).any fun i => someAnd as[i]? fun a => savesB a && okAnd (Editor.steps S A W ⟨w0, disk⟩ (as.take i)) fun e1 =>
        someAnd e1.ws.current fun b => okAnd b.buf.data.toStr fun t => someAnd (e.disk n) fun bs => decide (bs <+: enc t)

end Scribe.Oracle
