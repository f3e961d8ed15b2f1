import Verif.Model.Editor
import Verif.Spec.Session
/-!
# What a program using a workspace on a disk sees

A list of documents with a selection, and files.
-/
namespace Scribe.Spec
variable {σ : Type}

/-- Of `n` bytes, how many get written, and whether that is all of them. -/
def written : List WriteRes → Nat → Nat × Bool
  | _, 0 => (0, true)
  | .interrupted :: rs, n + 1 => written rs (n + 1)
  | .wrote (k + 1) :: rs, n + 1 => (min (k + 1) (n + 1) + (written rs (n - k)).1, (written rs (n - k)).2)
  | _, _ => (0, false)

/-- The open documents and the files. -/
structure Desktop (σ : Type) where
  docs : Studio σ
  disk : Disk

namespace Desktop
variable (segs : Text → List Text) (grant : Nat → Nat → Nat → Nat) (s : Syntaxes σ) (W : FileTree)

/-- Something done with the documents. -/
def act (d : Desktop σ) (a : Act σ) : Desktop σ := { d with docs := (d.docs.act segs grant s a).2 }

/-- The file that a document is saved to. -/
def target (x : Sheet σ) : Option Nat := if x.path.getD [] = [] then none else W.slot (x.path.getD [])

/-- The selected document is saved, if it has a place and the operating system lets it: its file then holds as many bytes of the text as were written, and if
these were all, the document is marked as saved. -/
def save (d : Desktop σ) (env : SaveEnv) : Desktop σ :=
  match d.docs.tabs.selected, env.create with
  | some x, some (some _) =>
    match target W x with
    | some n =>
      let bytes := enc x.doc.zip.text
      let w := written env.writes bytes.length
      let d := if w.2 then d.act segs grant s (.cmd .saved) else d
      { d with disk := fun f => if f = n then some (bytes.take w.1) else d.disk f }
    | none => d
  | _, _ => d

/-- What reading sees. -/
def files (d : Desktop σ) (readable : Bool) : Fs where
  read p := if readable then (W.slot p).bind d.disk else none
  canon p := (W.slot p).bind fun n => (d.disk n).map fun _ => W.real p

/-- One step. -/
def step (d : Desktop σ) : Deed σ → Desktop σ
  | .fresh clock => d.act segs grant s (.add clock none [] none none none)
  | .openPath clock readable p => d.act segs grant s (.openPath clock (d.files W readable) (d.files W readable) (d.files W readable) p)
  | .close => d.act segs grant s .close
  | .next => d.act segs grant s .next
  | .previous => d.act segs grant s .previous
  | .updateSyntax => d.act segs grant s .updateSyntax
  | .setSyntax y => d.act segs grant s (.setSyntax y)
  | .cmd c => d.act segs grant s (.cmd c)
  | .save env => d.save segs grant s W env
  | .saveAs p env => (d.act segs grant s (.setPath (some p))).save segs grant s W env
  | .reload readable =>
    match (d.docs.tabs.selected.bind (·.path)).bind (d.files W readable).readToString with
    | some text => d.act segs grant s (.cmd (.reload text))
    | none => d

/-- Some steps. -/
def steps (d : Desktop σ) (as : List (Deed σ)) : Desktop σ := as.foldl (step segs grant s W) d

end Desktop

/-- Saves. -/
def Saves : Deed σ → Prop
  | .save _ | .saveAs _ _ => True
  | _ => False

end Scribe.Spec
