import Verif.Model.Dialogue
import Verif.Spec.Desktop
import Verif.Spec.Ordinary
/-! # What a program is told, in terms of documents and files -/
namespace Scribe.Spec
variable {σ : Type}

/-- The places where `needle` occurs in a line: bytes from the start of the line, but not the end of the line. -/
def occurrences (needle line : Text) : List Nat :=
  ((List.range line.length).filter fun n => needle.isPrefixOf (line.drop n)).map fun n => blen (line.take n)

/-- The places where `needle` occurs, line by line. -/
def found (needle t : Text) : List Position :=
  (strLines t).zipIdx.flatMap fun x => (occurrences needle x.1).map fun o => ⟨x.2, o⟩

/-- How writing `n` bytes ends. -/
def stops : List WriteRes → Nat → Ending
  | _, 0 => .ok
  | [], _ + 1 => .crash
  | .interrupted :: rs, n + 1 => stops rs (n + 1)
  | .wrote (k + 1) :: rs, n + 1 => stops rs (n - k)
  | _, _ => .err

/-- A path as it is shown: without the path of the workspace, if it is below that. -/
def shown (root : Path) (p : Path) : Path := if root <+: p then p.drop root.length else p

namespace Desktop
variable (segs : Text → List Text) (grant : Nat → Nat → Nat → Nat) (s : Syntaxes σ) (W : FileTree) (root : Path)

/-- A question about the selected document. -/
def askDoc (d : Desktop σ) (f : Sheet σ → Reply σ) : Reply σ :=
  match d.docs.tabs.selected with
  | none => .nobody
  | some x => f x

/-- The answers. -/
def reply (d : Desktop σ) : Ask → Reply σ
  | .data => d.askDoc fun x => .text x.doc.zip.text
  | .read p q => d.askDoc fun x => .maybeText (x.doc.between segs (lo p q) (hi p q))
  | .search needle => d.askDoc fun x => .places (found needle x.doc.zip.text)
  | .lineCount => d.askDoc fun x => .number (x.doc.zip.text.count '\n' + 1)
  | .modified => d.askDoc fun x => .flag (decide (x.doc.mark ≠ some x.doc.undo.length))
  | .cursor => d.askDoc fun x => .place x.doc.cursor.position
  | .inBounds p => d.askDoc fun x => .flag (x.doc.zip.has segs p)
  | .id => d.askDoc fun x => .maybeNumber x.id
  | .path => d.askDoc fun x => .maybePath x.path
  | .name => d.askDoc fun x => .maybeText (x.path.bind fun p => p.fileName.bind strict)
  | .extension => d.askDoc fun x => .maybeText (x.path.bind fun p => p.extension.bind fun e => if e.isEmpty then none else some (lossy e))
  | .index => .maybeNumber (if d.docs.tabs.items.isEmpty then none else some d.docs.tabs.sel)
  | .currentPath => .maybePath (d.docs.tabs.selected.bind fun x => x.path.map (shown root))
  | .paths => .maybePaths (d.docs.tabs.items.map fun x => x.path.map (shown root))
  | .tokens =>
    match d.docs.tabs.selected with
    | none => .noTokens .emptyWorkspace
    | some x => match x.syn with
      | none => .noTokens .missingSyntax
      | some y => .tokens x.doc.zip.text y

/-- How saving the document ends. -/
def ending (x : Sheet σ) (env : SaveEnv) : Ending :=
  match env.create, target W x with
  | none, _ => .crash
  | some (some _), some _ => stops env.writes (enc x.doc.zip.text).length
  | _, _ => .err

/-- What the calls return. -/
def result (d : Desktop σ) : Deed σ → Reply σ
  | .openPath clock readable p =>
    .flag (d.docs.act segs grant s (.openPath clock (d.files W readable) (d.files W readable) (d.files W readable) p)).1
  | .updateSyntax => .flag (!d.docs.tabs.items.isEmpty)
  | .cmd (.move (.to p)) => d.askDoc fun x => .flag (x.doc.zip.has segs p)
  | .cmd _ => d.askDoc fun _ => .done
  | .save env => d.askDoc fun x => .ended (ending W x env)
  | .saveAs p env => d.askDoc fun x => .ended (ending W { x with path := some p } env)
  | .reload readable => d.askDoc fun x => .flag (x.path.bind (d.files W readable).readToString).isSome
  | .setSyntax _ => d.askDoc fun _ => .done
  | .fresh _ | .close | .next | .previous => .done

/-- A whole conversation. -/
def talk (d : Desktop σ) : List (Line σ) → List (Reply σ) × Desktop σ
  | [] => ([], d)
  | .deed a :: ls =>
    let r := talk (d.step segs grant s W a) ls
    (d.result segs grant s W a :: r.1, r.2)
  | .ask q :: ls =>
    let r := talk d ls
    (d.reply segs root q :: r.1, r.2)

/-- Every text that is passed in or read from a file is made of clusters of `P`. -/
def OrdinaryLine (P : Text → Prop) (d : Desktop σ) : Line σ → Prop
  | .deed (.cmd (.insert t)) | .deed (.cmd (.replace t)) | .deed (.cmd (.reload t)) => Over segs P t
  | .deed (.openPath _ readable p) => ∀ t, (d.files W readable).readToString p = some t → Over segs P t
  | .deed (.reload readable) => ∀ x p t, d.docs.tabs.selected = some x → x.path = some p → (d.files W readable).readToString p = some t → Over segs P t
  | _ => True

/-- At every line of a conversation. -/
def OrdinaryLines (P : Text → Prop) (d : Desktop σ) : List (Line σ) → Prop
  | [] => True
  | l :: ls => OrdinaryLine segs W P d l ∧ match l with
    | .deed a => OrdinaryLines P (d.step segs grant s W a) ls
    | .ask _ => OrdinaryLines P d ls

end Desktop
end Scribe.Spec

namespace Scribe.Spec
variable {σ : Type}

/-- The strings that the program passes in consist of characters of `ok`. -/
def PlainLine (ok : Char → Prop) : Line σ → Prop
  | .deed (.cmd (.insert t)) | .deed (.cmd (.replace t)) | .deed (.cmd (.reload t)) => ∀ c ∈ t, ok c
  | _ => True

/-- The files, if they are text, consist of characters of `ok`. -/
def PlainDisk (ok : Char → Prop) (disk : Disk) : Prop := ∀ n t, disk n = some (enc t) → ∀ c ∈ t, ok c

end Scribe.Spec
