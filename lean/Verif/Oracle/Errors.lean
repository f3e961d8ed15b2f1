import Verif.Oracle.Program
import Verif.Spec.Errors
/-! # Executable forms of C82 and C83 -/
namespace Scribe.Oracle
open Spec Props Workspace

variable (S : Segmenter) (A : Alloc)

def o_C82_same (b : FileBuf Nat) (env : SaveEnvE) (disk : Disk) (fs fs' fs'' : FsE) (p : Path) (w : Workspace Nat) (syns : Option (Syntaxes Nat)) (f : Nat) : Bool :=
  decide (FileBuf.fromFile A 0 fs.plain fs'.plain p = (FileBuf.fromFileE A 0 fs fs' p : Except IoErr (FileBuf Nat)).toOption) &&
  (match b.save env.plain disk, b.saveE env disk with
  | .ok (ds, e, b1), .ok (ds', e', b2) => decide (ds.map (· f) = ds'.map (· f)) && decide (e = e'.plain) && decide (b1 = b2)
  | .error _, .error _ => true
  | _, _ => false) &&
  (match b.reload S A fs.plain, b.reloadE (ε := Empty) S A fs with
  | .ok (r, b1), .ok (r', b2) => r == r'.toOption.isSome && decide (b1 = b2)
  | .error _, .error _ => true
  | _, _ => false) &&
  (match w.openBuffer A 0 fs.plain fs'.plain fs''.plain p, w.openBufferE (ε := Empty) A 0 fs fs' fs'' p with
  | .ok (r, w1), .ok (r', w2) => r == r'.toOption.isSome && sameW w1 w2
  | .error _, .error _ => true
  | _, _ => false) &&
  (match w.updateCurrentSyntax, w.updateCurrentSyntaxE (ε := Empty) with
  | (r, w1), (r', w2) => r == r'.toOption.isSome && sameW w1 w2) &&
  (match Workspace.new fs.plain p syns, Workspace.newE (ε := Empty) fs p syns with
  | some w1, .ok w2 => sameW w1 w2
  | none, .error _ => true
  | _, _ => false)

def o_C82_reload (b : FileBuf Nat) (fs : FsE) : Bool :=
  okImp (b.reloadE (ε := Empty) S A fs) fun (r, b') =>
    match r, b.path with
    | .error .missingPath, none => decide (b' = b)
    | .error (.io e), some p => decide (b' = b) &&
      (match fs.read p with
      | .error e' => decide (e = e')
      | .ok bs => decide (strict bs = none) && decide (e = .invalidData))
    | .ok (), some p =>
      (match fs.read p with
      | .error _ => false
      | .ok bs => (strict bs).isSome)
    | _, _ => false

def o_C82_open (s : Syntaxes Nat) (root : Path) (cs : List (Call Nat)) (f0 f1 f2 : FsE) (p : Path) : Bool :=
  after A s root cs fun w => okImp (w.openBufferE (ε := Empty) A 0 f0 f1 f2 p) fun (r, w') =>
    match r with
    | .ok () => true
    | .error e => sameW w' w &&
      (match f0.canon p with
      | .ok c => (contents w).all fun b => decide (b.path ≠ some c)
      | .error _ => true) &&
      (match e with
      | .io x =>
        (match f1.read p with
        | .error y => decide (x = y)
        | .ok bs =>
          match strict bs with
          | none => decide (x = .invalidData)
          | some _ =>
            match f2.canon p with
            | .error y => decide (x = y)
            | .ok _ => false)
      | _ => false)

def o_C82_save (b : FileBuf Nat) (env : SaveEnvE) (disk : Disk) : Bool :=
  okImp (b.saveE env disk) fun (steps, e, b') =>
    match e with
    | .err e => decide (b' = b) &&
      if b.path.getD [] = [] then decide (e = .notFound) && steps.isEmpty
      else
        (match env.create with
        | some (.error x) => decide (e = x) && steps.isEmpty
        | some (.ok _) => !steps.isEmpty && (decide (.failed e ∈ env.writes) || (decide (e = .writeZero) && decide (.wrote 0 ∈ env.writes)))
        | none => false)
    | _ => true

/-- The numbers of bytes written. -/
def written (ws : List WriteResE) : Nat := (ws.map fun w => w.plain.bytes).sum

def o_C82_save_error (b : FileBuf Nat) (env : SaveEnvE) (disk : Disk) (f : Nat) : Bool :=
  okImp b.buf.data.toStr fun t =>
    match env.create with
    | some (.ok file) => imp (b.path.getD [] ≠ []) <| okImp (b.saveE env disk) fun (steps, e, _) =>
      let left := fun n => someAnd steps.getLast? fun last => decide (last file = some ((enc t).take n)) && imp (f ≠ file) (decide (last f = disk f))
      match e with
      | .err e => (List.range env.writes.length).any fun i =>
        let ws := env.writes.take i
        ws.all (fun w => decide w.plain.Good) && decide (written ws < blen t) &&
          (decide (env.writes[i]? = some (.failed e)) || (decide (env.writes[i]? = some (.wrote 0)) && decide (e = .writeZero))) && left (written ws)
      | .crash => env.writes.all (fun w => decide w.plain.Good) && decide (written env.writes < blen t) && left (written env.writes)
      | .ok => true
    | _ => true

def o_C82_new (fs : FsE) (p : Path) (syns : Option (Syntaxes Nat)) : Bool :=
  match Workspace.newE (ε := Empty) fs p syns with
  | .ok _ => syns.isSome && (match fs.canon p with | .ok _ => true | .error _ => false)
  | .error e =>
    match syns with
    | none => decide (e = .syntaxLoading)
    | some _ =>
      match fs.canon p with
      | .error x => decide (e = .io x)
      | .ok _ => false

/-- `fails` are the errors that the highlighters can give; `keeps` says that the program keeps its syntaxes. -/
def o_C83_current (H : Nat → Highlighter) (fails : (y : Nat) → (H y).Err → Bool) (s : Syntaxes Nat) (root : Path) (as : List (Act Nat)) : Bool :=
  someImp (Workspace.new (fsOf none (some root)) root (some s)) fun w0 =>
    let e := (noSheets.acts S.segs A.grant s as).2
    let keeps := as.all fun a => match a with | .setSyntax none => false | _ => true
    okAnd (w0.acts S A as) fun (_, w) => okAnd (w.currentBufferIter H) fun r =>
      match r, e.tabs.selected with
      | .error .emptyWorkspace, none => e.tabs.items.isEmpty
      | .error .missingSyntax, some x => x.syn.isNone && !keeps
      | .error (.highlighter ⟨y, err⟩), some x => decide (x.syn = some y) && fails y err
      | .ok ⟨y, it⟩, some x => decide (x.syn = some y) &&
        okAnd (drain S (enoughCalls x.doc.zip.text) it) fun r => someAnd r fun (ts, it') =>
          (match it'.error with
          | none => decide (render ts = x.doc.zip.text)
          | some err => fails y err && (render ts).isPrefixOf x.doc.zip.text)
      | _, _ => false

def o_C83_jump (H : Highlighter) (data : Text) (n i : Nat) (c : Cursor) : Bool :=
  tokenized S H data n fun ts _ =>
    imp ('\r' ∉ data) <|
    imp ((List.range ts.length).all (fun j => match ts[j]? with | some (.lexeme ..) => boundary S data (render (ts.take j)) | _ => true) = true) <|
      match ts[i]? with
      | some (.lexeme v _ p) => imp (boundary S data (render (ts.take i) ++ v) = true) <|
        decide (Cursor.moveTo S (GapBuffer.new A 0 data) c p = .ok (true, ⟨p, p.offset⟩)) &&
        decide (GapBuffer.read S (GapBuffer.new A 0 data) (Range.new p ⟨p.line, p.offset + (S.segs v).length⟩) = .ok (some v))
      | _ => true

end Scribe.Oracle
