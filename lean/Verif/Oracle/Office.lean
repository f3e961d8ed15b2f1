import Verif.Oracle.Desktop
import Verif.Spec.Office
/-! # Executable forms of C97 -/
namespace Scribe.Oracle
open Spec Props

variable (S : Segmenter) (A : Alloc)

/-- All programs have the same root; the first `k` are looked at. -/
def o_C97_programs (s : Syntaxes Nat) (root : Path) (disk : Disk) (es : List (Event Nat)) (ps : List Position) (m k : Nat) : Bool :=
  someImp (Workspace.new (fsOf none (some root)) root (some s)) fun w0 =>
    let d := Offices.steps S.segs A.grant (fun _ => s) ⟨fun _ => noSheets, disk⟩ es
    okAnd (Office.steps S A ⟨fun _ => w0, disk⟩ es) fun o =>
      (List.range m).all (fun n => decide (o.disk n = d.disk n)) && (List.range k).all fun i =>
        let t := (d.docs i).tabs
        decide ((o.ws i).currentBufferIndex = (if t.items.isEmpty then none else some t.sel)) &&
        decide ((o.ws i).current = (contents (o.ws i))[t.sel]?) && pairwiseB (showsB S ps) (contents (o.ws i)) t.items &&
        decide ((o.ws i).bufferPaths = t.items.map (fun x => x.path.map fun p => if w0.path <+: p then p.drop w0.path.length else p))

def peeksB : Deed Nat → Bool
  | .openPath _ _ _ | .reload _ => true
  | _ => false

theorem peeksB_iff (a : Deed Nat) : peeksB a = true ↔ ReadsFiles a := by cases a <;> simp [peeksB, ReadsFiles]

def mineB (who : Nat) : Event Nat → Bool
  | .deed i _ _ => decide (i = who)
  | .outside _ => false

/-- The events after the first ones, with and without the others. -/
def o_C97_unnoticed (s : Syntaxes Nat) (root : Path) (disk : Disk) (pre es : List (Event Nat)) (who : Nat) : Bool :=
  someImp (Workspace.new (fsOf none (some root)) root (some s)) fun w0 =>
    okImp (Office.steps S A ⟨fun _ => w0, disk⟩ pre) fun o => imp ((deedsOf who es).all (fun x => !peeksB x.2) = true) <|
      okImp (Office.steps S A o es) fun o1 => okImp (Office.steps S A o (es.filter (mineB who))) fun o2 =>
        decide ((o1.ws who).current = (o2.ws who).current ∧ contents (o1.ws who) = contents (o2.ws who))

def o_C97_files (s : Syntaxes Nat) (root : Path) (disk : Disk) (es : List (Event Nat)) (n : Nat) : Bool :=
  someImp (Workspace.new (fsOf none (some root)) root (some s)) fun w0 =>
    okImp (Office.steps S A ⟨fun _ => w0, disk⟩ es) fun o => decide (o.disk n = disk n) ||
      (List.range es.length).any fun i => someAnd es[i]? fun ev =>
        match ev with
        | .outside d => decide (o.disk n = d n)
        | .deed who _ a => savesB a && okAnd (Office.steps S A ⟨fun _ => w0, disk⟩ (es.take i)) fun o1 =>
          someAnd (o1.ws who).current fun b => okAnd b.buf.data.toStr fun t => someAnd (o.disk n) fun bs => decide (bs <+: enc t)

def o_C97_overwrites (W : FileTree) (s : Syntaxes Nat) (root : Path) (disk : Disk) (es : List (Event Nat)) (who m : Nat) (env : SaveEnv) : Bool :=
  someImp (Workspace.new (fsOf none (some root)) root (some s)) fun w0 =>
    okImp (Office.steps S A ⟨fun _ => w0, disk⟩ es) fun o => someImp (o.ws who).current fun b => okImp b.buf.data.toStr fun t =>
      someImp (W.slot (b.path.getD [])) fun n =>
        imp (b.path.getD [] ≠ [] ∧ (match env.create with | some (some _) => true | _ => false) = true ∧ (written env.writes (enc t).length).2 = true) <|
          okImp (o.step S A (.deed who W (.save env))) fun o' => decide (o'.disk n = some (enc t)) && (decide (m = n) || decide (o'.disk m = o.disk m)) &&
            (decide (m = who) || decide ((o'.ws m).current = (o.ws m).current ∧ contents (o'.ws m) = contents (o.ws m)))

end Scribe.Oracle
