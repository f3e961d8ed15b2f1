import Verif.Oracle.Basic
import Verif.Model.LineIterator
import Verif.Spec.Token
import Verif.Spec.File
import Verif.Spec.Workspace
import Verif.Spec.Machine
import Verif.Spec.MachineRest
import Verif.Spec.Shared
import Verif.Spec.Ordinary
import Verif.Spec.Snap
import Verif.Oracle.Buffer
/-! # Executable forms of C20–C22, C24, C36–C44, C48, C58–C65, C70–C73 -/
namespace Scribe.Oracle
open Spec Props

deriving instance DecidableEq for FileBuf

variable (S : Segmenter) (A : Alloc)

/-! ## Ordinary text -/
section
variable (T : Uax29.Table)

/-- `Over` for ordinary clusters, as a function. -/
def overB (t : Text) : Bool := (S.segs t).all fun c => decide (Uax29.Ordinary T.cls c)

/-- For the segmenter of the table. -/
def o_C49_gap_buffer (k : Nat) (t : Text) (cs : List GapBuffer.Call) : Bool :=
  imp (overB S T t = true) <| imp ((inserted cs).all (overB S T) = true) <| okAnd (GapBuffer.run S A (GapBuffer.new A k t) cs) fun (os, g) =>
    decide (os = (runText S.segs t cs).1) && decide (g.toStr = .ok (runText S.segs t cs).2) && overB S T (runText S.segs t cs).2

def typingB : Buf.Cmd → Bool
  | .insert s | .replace s | .reload s => overB S T s
  | .deleteRange _ _ | .startGroup => false
  | _ => true

/-- For the segmenter of the table. -/
def o_C49_editing_session (content : Option Text) (cs : List Buf.Cmd) (k : Nat) : Bool :=
  let (b0, d0, t0) := startOf A content
  imp (overB S T t0 = true) <| imp (cs.all (typingB S T) = true) <|
    (okAnd (Buf.execAll S A b0 cs) fun b => decide (b.data.toStr = .ok (snaps S.segs d0 (Snap.new t0) cs).present) &&
      imp (b.modified = false) (someAnd (lastSync S.segs d0 (if b0.modified then none else some t0) cs) fun t => decide (b.data.toStr = .ok t))) &&
    okAnd (Buf.execAll S A b0 (cs ++ List.replicate (cs.length + k) .undo)) fun b => decide (b.data.toStr = .ok t0)
end

/-! ## Saving and loading -/

def o_C20_save (b : FileBuf Nat) (env : SaveEnv) (disk : Disk) (f : Nat) : Bool :=
  okImp b.buf.data.toStr fun t => okAnd (b.save env disk) fun (steps, e, b') =>
    imp (e = .ok) (someAnd env.create.join fun file =>
      decide (final disk steps file = some (enc t)) && imp (f ≠ file) (decide (final disk steps f = disk f)) &&
      decide (b' = { b with buf := b.buf.setMark }) && !b'.buf.modified && decide (b'.buf.data.toStr = .ok t)) &&
    imp (e ≠ .ok) (decide (b' = b)) &&
    imp (b.path = none) (decide (e ≠ .ok) && steps.isEmpty)

def o_C20_save_succeeds (b : FileBuf Nat) (env : SaveEnv) (disk : Disk) : Bool :=
  okImp b.buf.data.toStr fun t => someImp env.create.join fun _ =>
    imp (b.path.getD [] ≠ []) <|
    imp (env.writes.all (fun r => match r with | .interrupted => true | .wrote (_ + 1) => true | _ => false) = true) <|
    imp (blen t ≤ env.writes.countP (fun r => match r with | .wrote _ => true | _ => false)) <|
      okAnd (b.save env disk) fun (_, e, _) => decide (e = .ok)

def o_C20_save_outcome (b : FileBuf Nat) (env : SaveEnv) (disk : Disk) : Bool :=
  okImp b.buf.data.toStr fun t => someImp env.create.join fun _ => imp (b.path.getD [] ≠ []) <|
    okAnd (b.save env disk) fun (_, e, _) =>
      let sum := fun i => ((env.writes.take i).map WriteRes.bytes).sum
      let good := fun i => (env.writes.take i).all fun r => decide r.Good
      ((List.range (env.writes.length + 1)).all fun i => imp (good i = true ∧ blen t ≤ sum i) (decide (e = .ok))) &&
      ((List.range env.writes.length).all fun i =>
        imp (good i = true ∧ sum i < blen t ∧ (env.writes[i]?.all fun r => !decide r.Good) = true) (decide (e = .err)))

def o_C21_crash_points (b : FileBuf Nat) (env : SaveEnv) (disk : Disk) (f : Nat) : Bool :=
  okImp b.buf.data.toStr fun t => okImp (b.save env disk) fun (steps, _, _) =>
    steps.all fun d => someAnd env.create.join fun file =>
      (someAnd (d file) fun p => p.isPrefixOf (enc t)) && imp (f ≠ file) (decide (d f = disk f))

def o_C21_create_fails (b : FileBuf Nat) (env : SaveEnv) (disk : Disk) : Bool :=
  imp (env.create.join = none) <| okImp (b.save env disk) fun (steps, _, _) => steps.isEmpty

def o_C21_not_atomic (b : FileBuf Nat) (disk : Disk) (file : Nat) : Bool :=
  okImp b.buf.data.toStr fun t => imp (t ≠ []) <| imp (b.path.getD [] ≠ []) <|
    okAnd (b.save ⟨some (some file), []⟩ disk) fun (steps, e, b') =>
      decide (e = .crash) && decide (b' = b) && decide (final disk steps file = some [])

/-- Reading gives what is in the file `file` of the disk. -/
def fsOf (content : Option Bytes) (canon : Option Path) : Fs := ⟨fun _ => content, fun _ => canon⟩

def o_C22_load_saved (b : FileBuf Nat) (env : SaveEnv) (disk : Disk) (p c : Path) : Bool :=
  okImp b.buf.data.toStr fun t => someImp env.create.join fun file => okImp (b.save env disk) fun (steps, e, _) =>
    imp (e = .ok) <|
      someAnd (FileBuf.fromFile A 0 (fsOf (final disk steps file) none) (fsOf none (some c)) p : Option (FileBuf Nat)) fun l =>
        decide (l.path = some c) && decide (l.buf.data.toStr = .ok t) && !l.buf.modified && decide (l.buf.cursor.position = ⟨0, 0⟩) && l.id.isNone && l.syn.isNone

def o_C22_save_loaded (bytes : Bytes) (p c : Path) (env : SaveEnv) (disk : Disk) : Bool :=
  someImp (FileBuf.fromFile A 0 (fsOf (some bytes) none) (fsOf none (some c)) p : Option (FileBuf Nat)) fun l =>
    someImp env.create.join fun file => okImp (l.save env disk) fun (steps, e, _) =>
      imp (e = .ok) (decide (final disk steps file = some bytes))

def o_C21_after_crash (b : FileBuf Nat) (env : SaveEnv) (disk : Disk) (p c : Path) : Bool :=
  okImp b.buf.data.toStr fun t => someImp env.create.join fun file => okImp (b.save env disk) fun (steps, _, _) =>
    steps.all fun d =>
      match (FileBuf.fromFile A 0 (fsOf (d file) none) (fsOf none (some c)) p : Option (FileBuf Nat)) with
      | some l => okAnd l.buf.data.toStr fun x => x.isPrefixOf t
      | none => decide (d file ≠ some (enc (lossy ((d file).getD []))))

def o_C94_new (k : Nat) : Bool :=
  let b : FileBuf Nat := FileBuf.new A k
  decide (b.path = none ∧ b.fileName = none ∧ b.fileExtension = none ∧ b.syn = none ∧ b.id = none ∧ b.buf.data.toStr = .ok [] ∧ b.buf.modified = true)

def o_C94_byte_names (b : FileBuf Nat) : Bool :=
  someImp b.path fun p => someImp p.getLast? fun c =>
    match c with
    | .normal name =>
      decide (b.fileName = some (lossy name) ↔ name = enc (lossy name)) && imp (46 ∉ name) b.fileExtension.isNone &&
      ((List.range name.length).all fun i => imp (name[i]? = some 46 ∧ 46 ∉ name.drop (i + 1)) <|
        decide (b.fileExtension = if name.take i = [] ∨ name.drop (i + 1) = [] then none else some (lossy (name.drop (i + 1)))))
    | _ => b.fileName.isNone && b.fileExtension.isNone

/-- For bytes that are not the encoding of a text. -/
def o_C22_invalid_refused (b : FileBuf Nat) (bs : Bytes) (c : Path) : Bool :=
  imp (enc (lossy bs) ≠ bs) <|
    (FileBuf.fromFile A 0 (fsOf (some bs) none) (fsOf none (some c)) [] : Option (FileBuf Nat)).isNone &&
    imp (b.path.isSome = true) (decide (b.reload S A (fsOf (some bs) none) = .ok (false, b)))

def o_C24_reload (b : FileBuf Nat) (fs : Fs) : Bool :=
  okImp b.buf.data.toStr fun _ =>
    match b.path.bind fs.readToString with
    | none => decide (b.reload S A fs = .ok (false, b))
    | some c => okAnd (b.reload S A fs) fun (ok, b') => ok && decide (b'.buf.data.toStr = .ok c) && !b'.buf.modified &&
      decide (b'.id = b.id) && decide (b'.path = b.path) && decide (b'.syn = b.syn) && decide (b'.buf.callback = b.buf.callback)

def o_C24_reload_can_be_undone (b : FileBuf Nat) (fs : Fs) : Bool :=
  okImp b.buf.data.toStr fun old => imp (b.buf.group = none) <| someImp (b.path.bind fs.readToString) fun c => imp (c ≠ old) <|
    okImp (b.reload S A fs) fun (ok, b') => imp (ok = true) <|
      okAnd (Buf.exec S A b'.buf .undo) fun b'' => decide (b''.data.toStr = .ok old)

/-! ## Tokens -/

/-- All tokens, if there are fewer than the bound, and the iterator after them. -/
def drain {H : Highlighter} : Nat → TokenIter H → R (Option (List (Token H.Scopes) × TokenIter H))
  | 0, _ => .ok none
  | n + 1, it => do
    match ← TokenIter.next S it with
    | (none, it') => .ok (some ([], it'))
    | (some t, it') => return (← drain n it').map fun r => (t :: r.1, r.2)

/-- Tokenize and look at the result. -/
@[inline] def tokenized (H : Highlighter) (data : Text) (n : Nat) (P : List (Token H.Scopes) → TokenIter H → Bool) : Bool :=
  okImp (TokenIter.new H data) fun r =>
    match r with
    | .error _ => true
    | .ok it => okImp (drain S n it) fun r => someImp r fun r => P r.1 r.2

/-- Enough calls to get all tokens of the text. -/
def enoughCalls (data : Text) : Nat := blen data + data.count '\n' + 1

/-- C36, and that there are no more tokens than C70 says. -/
def o_C36_tokens_are_lossless (H : Highlighter) (canFail : Bool) (data : Text) : Bool :=
  okAnd (TokenIter.new H data) fun r =>
    match r with
    | .error _ => canFail
    | .ok it => okAnd (drain S (enoughCalls data) it) fun r => someAnd r fun (ts, it') =>
      ts.all (fun t => match t with | .lexeme v _ _ => decide ('\n' ∉ v) | .newline => true) &&
      if it'.error.isNone then decide (render ts = data) else canFail && (render ts).isPrefixOf data

def o_C37_token_positions (H : Highlighter) (data : Text) (n i : Nat) : Bool :=
  tokenized S H data n fun ts _ =>
    match ts[i]? with
    | some (.lexeme _ _ p) => decide (p = posAfter S.segs (ts.take i))
    | _ => true

/-- `x` ends at a cluster boundary of `data`. -/
def boundary (data x : Text) : Bool := (List.range ((S.segs data).length + 1)).any fun n => decide (((S.segs data).take n).flatten = x)

def o_C37_positions_in_buffer (H : Highlighter) (data : Text) (n i : Nat) : Bool :=
  tokenized S H data n fun ts _ =>
    imp ('\r' ∉ data) <|
    imp ((List.range ts.length).all (fun j => match ts[j]? with | some (.lexeme ..) => boundary S data (render (ts.take j)) | _ => true) = true) <|
      match ts[i]? with
      | some (.lexeme v _ p) => someAnd (place? (S.segs data) p) fun (x, y) => decide (x = render (ts.take i)) && v.isPrefixOf y
      | _ => true

def o_C48_token_scopes (H : Highlighter) [DecidableEq H.Scopes] (data : Text) (n i : Nat) : Bool :=
  tokenized S H data n fun ts _ =>
    match ts[i]? with
    | some (.lexeme _ k p) => decide (k = scopeAfter H (((events H.parser (fileLines data)).take p.line).flatten ++
      ((events H.parser (fileLines data))[p.line]?.getD []).takeWhile (fun e => e.1 ≤ bytesAfter (ts.take i))))
    | _ => true

def o_C70_empty_lexemes (H : Highlighter) (data : Text) (n i : Nat) : Bool :=
  tokenized S H data n fun ts it' =>
    match ts[i]? with
    | some (.lexeme [] _ _) =>
      (match ts.drop (i + 1) with
      | .newline :: _ => true
      | [] => it'.error.isSome
      | _ => false)
    | _ => true

def o_C70_fused (H : Highlighter) (data : Text) (n : Nat) : Bool :=
  tokenized S H data n fun _ it' => it'.error.isSome ||
    (match TokenIter.next S it' with
    | .ok (none, it'') => it''.error.isNone && (match TokenIter.next S it'' with | .ok (none, _) => true | _ => false)
    | _ => false)

def o_C70_never_panics (H : Highlighter) (data : Text) (n : Nat) : Bool :=
  okImp (TokenIter.new H data) fun r =>
    match r with
    | .error _ => true
    | .ok it => okAnd (TokenIter.nexts S n it) fun _ => true

def o_C71_scope_of_every_byte (H : Highlighter) [DecidableEq H.Scopes] (data : Text) (n i : Nat) : Bool :=
  tokenized S H data n fun ts _ =>
    match ts[i]? with
    | some (.lexeme v k p) => (List.range (blen v)).all fun j =>
      decide (k = scopeAfter H (((events H.parser (fileLines data)).take p.line).flatten ++
        ((events H.parser (fileLines data))[p.line]?.getD []).takeWhile (fun e => e.1 ≤ bytesAfter (ts.take i) + j)))
    | _ => true

/-! ## Workspaces -/
section
open Workspace
variable (s : Syntaxes Nat) (root : Path) (cs : List (Call Nat))

/-- The workspace after some calls. -/
@[inline] def after (P : Workspace Nat → Bool) : Bool :=
  someImp (Workspace.new (fsOf none (some root)) root (some s)) fun w0 => okImp (w0.calls A cs) P

/-- Everything that can be observed of two workspaces agrees. -/
def sameW (w w' : Workspace Nat) : Bool :=
  decide (w.path = w'.path) && decide (w.buffers = w'.buffers) && decide (w.nextId = w'.nextId) && decide (w.current = w'.current) &&
  decide (w.index = w'.index)

def o_C38_workspace_is_a_list (k : Nat) : Bool :=
  someImp (Workspace.new (fsOf none (some root)) root (some s)) fun w0 =>
    let t := (nothing.calls A s cs).tabs
    okAnd (w0.calls A cs) fun w =>
      decide (w.current = t.selected) && decide (w.currentBufferIndex = if t.items.isEmpty then none else some t.sel) &&
      imp (t.items ≠ []) (decide (t.sel < t.items.length)) && decide (contents w = t.items) &&
      okAnd (w.calls A (List.replicate k .next)) fun w' =>
        imp (t.items ≠ []) (decide (w'.current = t.items[(t.sel + k) % t.items.length]?))

def o_C38_results (c : Call Nat) : Bool :=
  after A s root cs fun w => okAnd (w.call A c) fun (r, _) => r == ((nothing.calls A s cs).call A s c).1

def o_C39_others_untouched (c : Call Nat) : Bool :=
  after A s root cs fun w => okImp (w.call A c) fun (_, w') => someImp w.currentBufferIndex fun i =>
    ((contents w).eraseIdx i).isSublist (contents w')

def o_C39_coming_back (ms : List (Call Nat)) : Bool :=
  imp (ms.all (fun m => match m with | .next | .previous | .openPath .. => true | _ => false) = true) <|
  after A s root cs fun w => okImp (w.calls A ms) fun w' =>
    imp (w'.bufferPaths.length = w.bufferPaths.length) <| imp (w'.currentBufferIndex = w.currentBufferIndex) (sameW w' w)

def o_C40_cycle : Bool :=
  after A s root cs fun w =>
    okAnd (w.calls A [.next, .previous]) (sameW w) && okAnd (w.calls A [.previous, .next]) (sameW w) &&
    okAnd (w.calls A (List.replicate (contents w).length .next)) (sameW w) &&
    (List.range (contents w).length).all fun j => (List.range (contents w).length).any fun k =>
      okAnd (w.calls A (List.replicate k .next)) fun w' => decide (w'.currentBufferIndex = some j) && decide (w'.current = (contents w)[j]?)

/-- For calls that keep ids. -/
def o_C41_ids_distinct : Bool :=
  after A s root cs fun w => (contents w).all (fun b => b.id.isSome) && decide ((contents w).map (·.id)).Nodup

/-- For calls that keep ids. -/
def o_C41_ids_never_reused (ds : List (Call Nat)) (b : FileBuf Nat) : Bool :=
  after A s root cs fun w1 => okImp (w1.calls A ds) fun w2 => okImp (w2.addBuffer A b) fun w3 =>
    someAnd (w3.current.bind (·.id)) fun n => (contents w1).all fun x => decide (x.id ≠ some n)

/-- For calls that only open files. -/
def o_C42_no_duplicates : Bool :=
  after A s root cs fun w => decide ((contents w).map (·.path)).Nodup

def o_C42_open_selects (f0 f1 f2 : Fs) (p : Path) : Bool :=
  after A s root cs fun w => someImp (f0.canon p) fun c => imp ((contents w).any (fun b => decide (b.path = some c)) = true) <|
    okAnd (w.openBuffer A 0 f0 f1 f2 p) fun (ok, w') => ok && decide (contents w' = contents w) &&
      decide (w'.current.bind (·.path) = some c) && decide (w'.nextId = w.nextId) && decide (w'.path = w.path)

def o_C42_failed_open (f0 f1 f2 : Fs) (p : Path) : Bool :=
  after A s root cs fun w => okImp (w.openBuffer A 0 f0 f1 f2 p) fun (ok, w') => imp (ok = false) <|
    sameW w' w && decide (f1.readToString p = none ∨ f2.canon p = none)

def o_C43_buffer_paths : Bool :=
  after A s root cs fun w => decide (w.bufferPaths = (contents w).map w.relative) &&
    someImp w.currentBufferIndex fun i => decide (w.bufferPaths[i]? = some w.currentBufferPath)

def o_C43_new (fs : Fs) (path : Path) (syns : Option (Syntaxes Nat)) : Bool :=
  match Workspace.new fs path syns with
  | none => syns.isNone || (fs.canon path).isNone
  | some w => syns.isSome && decide (fs.canon path = some w.path) && w.bufferPaths.isEmpty && w.currentBufferPath.isNone && w.currentBufferIndex.isNone &&
    decide (w.current = none) && (match w.currentBufferTokens with | .ok (.error .emptyWorkspace) => true | _ => false)

def o_C43_relative (w : Workspace Nat) (b : FileBuf Nat) : Bool :=
  match b.path with
  | none => decide (w.relative b = none)
  | some p => decide (w.relative b = some (if w.path.isPrefixOf p then p.drop w.path.length else p))

def o_C44_add_syntax (b : FileBuf Nat) : Bool :=
  after A s root cs fun w => okAnd (w.addBuffer A b) fun w' => someAnd w'.current fun c =>
    decide (c.buf = b.buf) && decide (c.path = b.path) &&
    decide (c.syn = some (match b.syn, b.fileExtension, b.fileName with
      | some x, _, _ => x
      | none, some e, _ => (s.find e).getD s.plain
      | none, none, some n => (s.find n).getD s.plain
      | none, none, none => s.plain))

/-- For calls that keep the syntax. -/
def o_C44_tokens : Bool :=
  after A s root cs fun w => (contents w).all (fun b => b.syn.isSome) &&
    if contents w = [] then (match w.currentBufferTokens with | .ok (.error .emptyWorkspace) => true | _ => false)
    else someAnd w.current fun b => decide (b ∈ contents w) && someAnd b.syn fun y => okImp b.buf.data.toStr fun t =>
      match w.currentBufferTokens with | .ok (.ok r) => decide (r = (t, y)) | _ => false

def o_C44_update_syntax : Bool :=
  after A s root cs fun w =>
    match w.current with
    | none => !w.updateCurrentSyntax.1 && sameW w.updateCurrentSyntax.2 w
    | some b =>
      let y := match b.fileExtension, b.fileName with
        | some e, _ => (s.find e).getD s.plain
        | none, some n => (s.find n).getD s.plain
        | none, none => s.plain
      w.updateCurrentSyntax.1 && sameW w.updateCurrentSyntax.2 { w with current := some { b with syn := some y } }
end

/-! ## Machine arithmetic -/
section
open Machine
variable [Word]

def o_C58_gap_buffer (k : Nat) (t : Text) (cs : List GapBuffer.Call) : Bool :=
  imp (cs.all (fun c => match c with | .delete p q => decide (p.line + 1 < 2 ^ Word.bits) && decide (q.line + 1 < 2 ^ Word.bits) | _ => true) = true) <|
    decide (gapSession .checked S A k t cs = gapSession .wrapping S A k t cs) &&
    (decide (gapSession .checked S A k t cs = .error .capacity) ||
      okAnd (gapSession .checked S A k t cs) fun r => decide (GapBuffer.run S A (GapBuffer.new A k t) cs = .ok r))

def o_C58_refused (M : Mode) (k : Nat) (t : Text) (cs : List GapBuffer.Call) : Bool :=
  imp (cs.all (fun c => match c with | .delete p q => decide (p.line + 1 < 2 ^ Word.bits) && decide (q.line + 1 < 2 ^ Word.bits) | _ => true) = true) <|
    okImp (GapBuffer.run S A (GapBuffer.new A k t) cs) fun r =>
      decide (gapSession M S A k t cs = if r.2.data.length < 2 ^ (Word.bits - 1) then .ok r else .error .capacity)

/-- The numbers passed are small. -/
def smallArgs (cs : List Buf.Cmd) : Bool :=
  cs.all fun c => match c with
    | .insert s => decide (blen s < 2 ^ (Word.bits - 1))
    | .deleteRange p q => decide (p.line < 2 ^ (Word.bits - 1)) && decide (q.line < 2 ^ (Word.bits - 1))
    | .setCursor p => decide (p.line < 2 ^ (Word.bits - 1)) && decide (p.offset < 2 ^ (Word.bits - 1))
    | _ => true

def o_C59_buffer (k : Nat) (content : Option Text) (cs : List Buf.Cmd) : Bool :=
  imp (smallArgs cs = true) <|
    decide (bufSession .checked S A k content cs = bufSession .wrapping S A k content cs) &&
    (decide (bufSession .checked S A k content cs = .error .capacity) ||
      okAnd (bufSession .checked S A k content cs) fun b => decide (natSession S A k content cs = .ok b))

def o_C59_refused (M : Mode) (k : Nat) (content : Option Text) (cs : List Buf.Cmd) : Bool :=
  imp (smallArgs cs = true) <| okImp (natSession S A k content cs) fun b =>
    decide (bufSession M S A k content cs =
      if ∀ g ∈ sessionVectors S A k content cs, g.data.length < 2 ^ (Word.bits - 1) then .ok b else .error .capacity)

def o_C59_line_count (M : Mode) (k : Nat) (content : Option Text) (cs : List Buf.Cmd) : Bool :=
  imp (smallArgs cs = true) <| okImp (bufSession M S A k content cs) fun b => decide (lineCount M b = b.lineCount)

def o_C60_last_line_number (g : GapBuffer) (t : Text) (p : Position) (o : Nat) : Bool :=
  let q : Position := ⟨2 ^ Word.bits - 1, o⟩
  imp (g.data.length < 2 ^ (Word.bits - 1)) <| someImp (place? (S.segs t) p) fun (x, _) =>
    decide (delete .checked S g (Range.new p q) = .error .overflow) &&
    okAnd (delete .wrapping S g (Range.new p q)) fun g' =>
      if x = [] then decide (toStr .wrapping g' = .ok t)
      else decide (toStr .wrapping g' = .ok (x ++ lossy g'.data)) && imp (g.gapLength = 0) (decide (toStr .wrapping g' = .ok (x ++ t)))

def o_C61_positions (p : Position) (d : Distance) (r : LineRange) : Bool :=
  [Mode.checked, Mode.wrapping].all (fun M =>
    imp ((p.add d).line < 2 ^ Word.bits) (imp ((p.add d).offset < 2 ^ Word.bits) (decide (posAdd M p d = .ok (p.add d)))) &&
    imp (r.stop + 1 < 2 ^ Word.bits) (decide (toInclusiveRange M r = .ok r.toInclusiveRange))) &&
  imp (¬ ((p.add d).line < 2 ^ Word.bits ∧ (d.lines = 0 → (p.add d).offset < 2 ^ Word.bits))) (decide (posAdd .checked p d = .error .overflow)) &&
  imp (¬ r.stop + 1 < 2 ^ Word.bits) (decide (toInclusiveRange .checked r = .error .overflow))

def o_C61_inverted (r : LineRange) : Bool :=
  imp (r.stop = 2 ^ Word.bits - 1) <| decide (toInclusiveRange .wrapping r = .ok ⟨⟨0, 0⟩, ⟨r.start, 0⟩⟩)

def o_C72_lines (M : Mode) (data : Text) (n : Nat) : Bool :=
  imp (blen data < 2 ^ (Word.bits - 1)) <| decide (lineRun M n (LineIter.new data) = LineIter.run n (LineIter.new data))

def o_C72_tokens (M : Mode) (H : Highlighter) [DecidableEq H.Scopes] [DecidableEq H.Err] (data : Text) (n : Nat) : Bool :=
  imp (blen data < 2 ^ (Word.bits - 1)) <| match TokenIter.new H data, tokenNew M H data with
  | .ok (.error _), .ok (.error _) => true
  | .ok (.ok it), .ok (.ok it') =>
    decide ((tokenNexts M S n it').map (fun x => (x.1, x.2.error)) = (it.nexts S n).map fun x => (x.1, x.2.error))
  | _, _ => false

def o_C73_workspace (M : Mode) (s : Syntaxes Nat) (root : Path) (cs : List (Workspace.Call Nat)) : Bool :=
  imp ((cs.map adds).sum < 2 ^ Word.bits) <| someImp (Workspace.new (fsOf none (some root)) root (some s)) fun w0 =>
    match wsCalls M A w0 cs, w0.calls A cs with
    | .ok w, .ok w' => sameW w w'
    | .error e, .error e' => decide (e = e')
    | _, _ => false

def o_C73_results (M : Mode) (s : Syntaxes Nat) (root : Path) (cs : List (Workspace.Call Nat)) (c : Workspace.Call Nat) : Bool :=
  imp (((cs ++ [c]).map adds).sum < 2 ^ Word.bits) <| someImp (Workspace.new (fsOf none (some root)) root (some s)) fun w0 =>
    okAnd (wsCalls M A w0 cs) fun w => okAnd (wsCall M A w c) fun x => okAnd (w.call A c) fun y => x.1 == y.1 && sameW x.2 y.2

def o_C73_ids_collide (s : Syntaxes Nat) (root : Path) (b : FileBuf Nat) : Bool :=
  someImp (Workspace.new (fsOf none (some root)) root (some s)) fun w0 =>
    (match wsCalls .checked A w0 (.add b :: churn b (2 ^ Word.bits - 1)) with
      | .error .overflow => true
      | _ => false) &&
    okAnd (wsCalls .wrapping A w0 (.add b :: churn b (2 ^ Word.bits - 1) ++ [.add b])) fun w => decide ((contents w).map (·.id) = [some 0, some 0])

end

/-! ## Shared gap buffers -/
section
open Shared

/-- What the callbacks below write down. -/
abbrev Diary := List (Position × List Cell)

/-- A callback that looks at all gap buffers and writes down what it sees. -/
def diary : Callback Diary := fun p w => .ok { w with ext := w.ext ++ [(p, w.cells)] }

/-- The cells and the diary agree. -/
def sameWorld (w w' : World Diary) : Bool := decide (w.cells = w'.cells) && decide (w.ext = w'.ext)

/-- `Own` as a function, without comparing the callback itself. -/
def ownB (w : World Diary) (b : Shared.Buf Diary) (a : Scribe.Buf) : Bool :=
  w.cells.all (fun c => decide (c.readers = 0) && !c.writing) && decide (w.cells[b.data]? = some (.free a.data)) &&
  decide (b.cursor.data = b.data) && decide (b.cursor.at_ = a.cursor) && decide (b.history = a.history) && decide (b.group = a.group) &&
  decide (b.callback.isSome = a.callback)

/-- For callbacks that behave. -/
def o_C62_no_panic (f : Callback Diary) (k : Nat) (t : Text) (cs : List Scribe.Buf.Cmd) : Bool :=
  okAnd (Shared.Buf.execAll S A f (Shared.Buf.new A ⟨[], []⟩ k).2 (Shared.Buf.new A ⟨[], []⟩ k).1 cs)
    (fun (b, w') => okAnd (Shared.Buf.text w' b) fun (_, w'') => sameWorld w' w'' && w'.cells.all fun c => decide (c.readers = 0) && !c.writing) &&
  okAnd (Shared.Buf.execAll S A f (Shared.Buf.fromContent A ⟨[], []⟩ k t).2 (Shared.Buf.fromContent A ⟨[], []⟩ k t).1 cs)
    (fun (b, w') => okAnd (Shared.Buf.text w' b) fun (_, w'') => sameWorld w' w'' && w'.cells.all fun c => decide (c.readers = 0) && !c.writing)

/-- The call panics because of a live guard. -/
def borrowPanic {α : Type} : R α → Bool
  | .error .borrow => true
  | _ => false

def o_C62_guards (w : World Diary) (b : Shared.Buf Diary) (s : Text) (p q : Position) : Bool :=
  someImp w.cells[b.data]? fun c =>
    imp (c.readers ≠ 0 ∨ c.writing = true) (borrowPanic (Shared.Buf.exec S A diary w b (.insert s))) &&
    imp (c.writing = true)
      (borrowPanic (Shared.Buf.text w b) && borrowPanic (Shared.Buf.read S w b (Range.new p q)) &&
        borrowPanic (Shared.Buf.exec S A diary w b .delete) && borrowPanic (Shared.Buf.exec S A diary w b (.deleteRange p q)) &&
        borrowPanic (Shared.Buf.exec S A diary w b (.replace s)) &&
        imp (b.cursor.data = b.data) (borrowPanic (Shared.Buf.exec S A diary w b (.move (.to p)))))

/-- Two results agree, world included. -/
def sameResult {α : Type} [DecidableEq α] (x : R (α × World Diary)) (y : R α) (w : World Diary) : Bool :=
  match x, y with
  | .ok (a, w'), .ok a' => decide (a = a') && sameWorld w' w
  | .error e, .error e' => decide (e = e')
  | _, _ => false

def o_C62_readers_allowed (w : World Diary) (b : Shared.Buf Diary) (p q : Position) (m : Cursor.Move) : Bool :=
  someImp w.cells[b.data]? fun c => imp (c.writing = false) <| imp (b.cursor.data = b.data) <|
    sameResult (Shared.Buf.text w b) c.value.toStr w && sameResult (Shared.Buf.read S w b (Range.new p q)) (c.value.read S (Range.new p q)) w &&
    sameResult (Cur.move S w b.cursor m) ((Cursor.move S c.value b.cursor.at_ m).map fun a => ⟨b.data, a⟩) w

/-- From any number of idle cells. -/
def o_C63_by_value (gs : List GapBuffer) (k : Nat) (content : Option Text) (cs : List Scribe.Buf.Cmd) : Bool :=
  let w : World Diary := ⟨gs.map .free, []⟩
  let (b, w) := match content with | some t => Shared.Buf.fromContent A w k t | none => Shared.Buf.new A w k
  let a := match content with | some t => Scribe.Buf.fromContent A k t | none => Scribe.Buf.new A k
  okAnd (Scribe.Buf.execAll S A a cs) fun a => okAnd (Shared.Buf.execAll S A diary w b cs) fun (b, w') =>
    ownB w' b a && decide (w'.ext.map (·.1) = a.log)

def o_C63_callback_sees (w : World Diary) (b : Shared.Buf Diary) (a : Scribe.Buf) (c : Scribe.Buf.Cmd) : Bool :=
  imp (a.callback = true) <|
    match c with
    | .setCallback _ => true
    | c => okImp (Scribe.Buf.exec S A a c) fun a' => okAnd (Shared.Buf.exec S A diary w b c) fun (b', w') =>
      let obs := w'.ext.drop w.ext.length
      ownB w' b' a' && decide (w'.ext = w.ext ++ obs) && decide (a'.log = a.log ++ obs.map (·.1)) &&
      imp (obs = []) (decide (w'.cells = w.cells)) &&
      someImp obs.getLast? fun (_, seen) => decide (seen = w'.cells) && decide (seen[b'.data]? = some (.free a'.data))

def o_C64_independent (ms : List Many) (i j : Nat) : Bool :=
  okAnd (many S A diary ⟨[], []⟩ [] ms) fun (bs, w) => okAnd (manyByValue S A [] ms) fun as =>
    decide (bs.length = as.length) &&
    (match bs[i]?, as[i]? with | some b, some a => ownB w b a | _, _ => true) &&
    match bs[i]?, bs[j]? with | some b, some b' => imp (b.data = b'.data) (decide (i = j)) | _, _ => true

def inPlaceB : Scribe.Buf.Cmd → Bool
  | .insert _ | .delete | .deleteRange _ _ | .startGroup | .endGroup | .move _ | .setCursor _ | .setCallback _ | .saved => true
  | _ => false

def o_C65_clone_follows (w : World Diary) (b : Shared.Buf Diary) (a : Scribe.Buf) (cs : List Scribe.Buf.Cmd) (m : Cursor.Move) : Bool :=
  imp (cs.all inPlaceB = true) <| okImp (Shared.Buf.execAll S A diary w b cs) fun (b', w') =>
    decide (b'.data = b.cursor.data) && okAnd (Scribe.Buf.execAll S A a cs) fun a' =>
      sameResult (Cur.move S w' b.cursor m) ((Cursor.move S a'.data b.cursor.at_ m).map fun x => ⟨b'.data, x⟩) w'

def o_C65_clone_goes_stale (w : World Diary) (b : Shared.Buf Diary) (a : Scribe.Buf) (t : Text) (cs : List Scribe.Buf.Cmd) (m : Cursor.Move) : Bool :=
  okImp a.data.toStr fun old => imp (t ≠ old) <| okAnd (Shared.Buf.execAll S A diary w b (.replace t :: cs)) fun (b', w') =>
    decide (b'.data ≠ b.cursor.data) && decide (b'.cursor.data = b'.data) &&
    sameResult (Cur.move S w' b.cursor m) ((Cursor.move S a.data b.cursor.at_ m).map fun x => ⟨b.cursor.data, x⟩) w'
end

end Scribe.Oracle
