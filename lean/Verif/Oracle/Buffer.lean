import Verif.Spec.LineRange
import Verif.Spec.Fused
import Verif.Oracle.Basic
import Verif.Model.Search
/-! # Executable forms of C12–C19, C23, C25, C30, C31, C46, C47, C50–C57 -/
namespace Scribe.Oracle
open Spec Props Buf

variable (S : Segmenter) (A : Alloc)

/-- A new buffer, or one with the given content; the document and the text it stands for. -/
def startOf (content : Option Text) : Buf × Doc × Text :=
  match content with
  | some t => (Buf.fromContent A 0 t, Doc.new t true, t)
  | none => (Buf.new A 0, Doc.new [] false, [])

/-- The buffer and document after a session of clean calls. -/
def session (content : Option Text) (cs : List Cmd) : Option (Buf × Doc) :=
  let (b, d, _) := startOf A content
  if CleanCmds S.segs d cs then
    match execAll S A b cs with
    | .ok b' => some (b', d.steps S.segs cs)
    | .error _ => none
  else none

def o_C47_no_panic (content : Option Text) (cs : List Cmd) : Bool :=
  okAnd (execAll S A (startOf A content).1 cs) fun b => okAnd b.data.toStr fun _ => true

def o_C12_undo_reverses (b : Buf) (d : Doc) (c : Cmd) (ms : List Cmd) : Bool :=
  imp (b.group = none) <| imp (CleanCmd S.segs d c) <| imp (Edits d.text c) <| imp (∀ m ∈ ms, Passive m) <|
    okAnd (execAll S A b (c :: ms ++ [.undo])) fun b' =>
      decide (b'.data.toStr = b.data.toStr) && decide (b'.history.previous.length = b.history.previous.length)

def o_C13_snapshot_history (content : Option Text) (cs : List Cmd) : Bool :=
  let (b0, d0, t0) := startOf A content
  imp (CleanCmds S.segs d0 cs) <| okAnd (execAll S A b0 cs) fun b =>
    let s := snaps S.segs d0 (Snap.new t0) cs
    decide (b.data.toStr = .ok s.present) && decide (b.history.previous.length = s.past.length) &&
    decide (b.history.next.length = s.future.length)

def o_C13_undo_everything (content : Option Text) (cs : List Cmd) (k : Nat) : Bool :=
  let (b0, d0, t0) := startOf A content
  imp (CleanCmds S.segs d0 cs) <| okAnd (execAll S A b0 (cs ++ List.replicate (cs.length + k) .undo)) fun b =>
    decide (b.data.toStr = .ok t0)

def o_C13_undo_redo_k (b : Buf) (k : Nat) : Bool :=
  imp (b.group = none) <| imp (k ≤ b.history.previous.length) <|
    okAnd (execAll S A b (List.replicate k .undo ++ List.replicate k .redo)) fun b' =>
      decide (b'.data.toStr = b.data.toStr) && decide (b'.history.previous.length = b.history.previous.length) &&
      decide (b'.history.next.length = b.history.next.length)

def o_C14_undo_redo (b : Buf) : Bool :=
  imp (b.group = none) <| imp (b.history.previous ≠ []) <|
    okAnd (execAll S A b [.undo, .redo]) fun b' => decide (b'.data.toStr = b.data.toStr)

def o_C14_redo_undo (b : Buf) : Bool :=
  imp (b.group = none) <| imp (b.history.next ≠ []) <|
    okAnd (execAll S A b [.redo, .undo]) fun b' => decide (b'.data.toStr = b.data.toStr)

/-- For any buffer, also after calls that are not clean. -/
def o_C15_edit_clears_redo (b : Buf) (c : Cmd) : Bool :=
  imp (b.group = none) <| okImp b.data.toStr fun t => imp (Edits t c) <|
    match c with
    | .reload _ => true
    | c => okImp (exec S A b c) fun b' => decide (b'.history.next = []) && decide (exec S A b' .redo = .ok b')

def o_C15_group_clears_redo (b : Buf) : Bool :=
  imp (b.group ≠ none ∧ b.group ≠ some []) <|
    decide (b.endGroup.history.next = []) && decide (exec S A b.endGroup .redo = .ok b.endGroup)

def o_C16_group_is_one_step (b : Buf) (d : Doc) (cs : List Cmd) : Bool :=
  imp (b.group = none) <| imp (CleanCmds S.segs d (.startGroup :: cs ++ [.endGroup])) <| imp (∀ c ∈ cs, InGroup c) <| imp (∃ c ∈ cs, IsEdit c) <|
    okAnd (execAll S A b (.startGroup :: cs ++ [.endGroup])) fun b1 =>
      decide (b1.history.previous.length = b.history.previous.length + 1) &&
      okAnd (exec S A b1 .undo) fun b2 => decide (b2.data.toStr = b.data.toStr) &&
      okAnd (exec S A b2 .redo) fun b3 => decide (b3.data.toStr = b1.data.toStr)

def o_C16_empty_group (b : Buf) : Bool :=
  imp (b.group = none) <| decide (b.startGroup.endGroup = b ∧ b.startGroup.startGroup = b.startGroup ∧ b.endGroup = b)

def o_C17_undo_open_group (b : Buf) (d : Doc) (cs : List Cmd) : Bool :=
  imp (b.group = none) <| imp (CleanCmds S.segs d (.startGroup :: cs)) <| imp (∀ c ∈ cs, InGroup c) <| imp (∃ c ∈ cs, IsEdit c) <|
    okAnd (execAll S A b (.startGroup :: cs)) fun b1 => okAnd (exec S A b1 .undo) fun b2 =>
      decide (b2.data.toStr = b.data.toStr ∧ b2.group = none ∧ b2.history.previous = b.history.previous ∧ b2.history.next = b.history.next)

def o_C17_undo_empty_group (b : Buf) : Bool :=
  imp (b.group = some []) <| decide (exec S A b .undo = exec S A { b with group := none } .undo)

def o_C18_unmodified_is_on_disk (content : Option Text) (cs : List Cmd) : Bool :=
  let (b0, d0, t0) := startOf A content
  imp (CleanCmds S.segs d0 cs) <| imp (SyncOutside S.segs d0 cs) <| okImp (execAll S A b0 cs) fun b =>
    imp (b.modified = false) <| imp (b.group = none ∨ b.group = some []) <|
      someAnd (lastSync S.segs d0 (if b0.modified then none else some t0) cs) fun t => decide (b.data.toStr = .ok t)

def o_C18_fresh (b : Buf) (t : Text) : Bool :=
  decide ((Buf.fromContent A 0 t).modified = false) && okImp (exec S A b .saved) (fun b' => decide (b'.modified = false)) &&
  okImp (exec S A b (.reload t)) fun b' => decide (b'.modified = false)

def o_C19_mark_is_tracked (b : Buf) (i j : Nat) : Bool :=
  imp (b.group = none) <| imp (j ≤ b.history.previous.length) <| imp (i ≤ j) <|
    okAnd (execAll S A b (.saved :: (List.replicate j .undo ++ List.replicate i .redo))) fun b' => decide (b'.modified = false ↔ i = j)

/-- Each of the calls edits the text there is at the time. -/
def allEdit : Buf → List Cmd → Bool
  | _, [] => true
  | b, c :: cs => okAnd b.data.toStr (fun t => decide (Edits t c)) && (match c with | .reload _ => false | _ => true) &&
    okAnd (exec S A b c) fun b' => allEdit b' cs

def o_C19_edits_undone (content : Option Text) (cs es : List Cmd) (i : Nat) : Bool :=
  imp (i ≤ es.length) <|
    okImp (execAll S A (startOf A content).1 cs) fun b => imp (b.group = none) <| imp (okAnd (exec S A b .saved) (fun b => allEdit S A b es) = true) <|
      okAnd (execAll S A b (.saved :: (es ++ List.replicate i .undo))) fun b' => decide (b'.modified = false ↔ i = es.length)

def o_C19_edit_modifies (b : Buf) (c : Cmd) : Bool :=
  imp (b.group = none) <| okImp b.data.toStr fun t => imp (Edits t c) <|
    match c with
    | .reload _ => true
    | c => okImp (exec S A b c) fun b' => b'.modified

def o_C23_replace (b : Buf) (c : Text) : Bool :=
  okImp b.data.toStr fun old =>
    if c = old then decide (exec S A b (.replace c) = .ok b)
    else okAnd (exec S A b (.replace c)) fun b' =>
      let p := b.cursor.position
      decide (b'.data.toStr = .ok c) && exists? S.segs c b'.cursor.position &&
      decide (b'.cursor.position =
        if exists? S.segs c p then p else if exists? S.segs c ⟨p.line, 0⟩ then ⟨p.line, 0⟩ else ⟨0, 0⟩)

def o_C25_callback_covers_changes (b : Buf) (d : Doc) (c : Cmd) (q : Position) : Bool :=
  imp (b.callback = true) <|
    match c with
    | .setCallback _ => true
    | c => imp (CleanCmd S.segs d c) <| okAnd (exec S A b c) fun b' => okAnd b.data.toStr fun t => okAnd b'.data.toStr fun t' =>
      let ps := b'.log.drop b.log.length
      decide (b'.log = b.log ++ ps) && imp (t ≠ t') (decide (ps ≠ [])) &&
      imp (∀ p ∈ ps, AtOrBefore q p) (someImp (place? (S.segs t) q) fun (x, _) =>
        someAnd (place? (S.segs t') q) fun (x', _) => decide (x' = x))

def o_C25_no_callback (b : Buf) (d : Doc) (c : Cmd) : Bool :=
  imp (b.callback = false) <| imp (CleanCmd S.segs d c) <| okAnd (exec S A b c) fun b' => decide (b'.log = b.log)

def o_C46_cursor_stays_in_bounds (b : Buf) (d : Doc) (c : Cmd) : Bool :=
  imp (CleanCmd S.segs d c) <| imp (KeepsCursor c) <| imp (b.data.inBounds S b.cursor.position = .ok true) <|
    okAnd (exec S A b c) fun b' => decide (b'.data.inBounds S b'.cursor.position = .ok true)

def o_C46_always_in_bounds (content : Option Text) (cs : List Cmd) : Bool :=
  let (b0, d0, _) := startOf A content
  imp (CleanCmds S.segs d0 cs) <| imp (∀ c ∈ cs, KeepsCursor c) <| okAnd (execAll S A b0 cs) fun b =>
    decide (b.data.inBounds S b.cursor.position = .ok true)

def o_C31_line_count (b : Buf) : Bool :=
  okImp b.data.toStr fun t => decide (b.lineCount = .ok (t.count '\n' + 1)) && decide (b.lineCount = .ok (splitNl t).length)

def o_C31_line_exists (b : Buf) (l : Nat) : Bool :=
  okImp b.data.toStr fun t => imp ('\r' ∉ t) <| okImp b.lineCount fun n => decide (b.data.inBounds S ⟨l, 0⟩ = .ok (decide (l < n)))

/-! ## Search -/

/-- `(i, x)` for every way to write a line `x ++ needle ++ y` with something in `needle ++ y`. -/
def o_C30_search (b : Buf) (needle : Text) : Bool :=
  okImp b.data.toStr fun t => okAnd (b.search needle) fun r =>
    decide (r.Pairwise Before) &&
    (List.range (strLines t).length).all (fun i =>
      let l := (strLines t)[i]?.getD []
      (List.range (l.length + 1)).all fun n =>
        imp (needle.isPrefixOf (l.drop n) = true ∧ l.drop n ≠ []) (decide (⟨i, blen (l.take n)⟩ ∈ r))) &&
    r.all fun p => someAnd (strLines t)[p.line]? fun l =>
      (List.range (l.length + 1)).any fun n =>
        needle.isPrefixOf (l.drop n) && decide (l.drop n ≠ []) && decide (p.offset = blen (l.take n))

/-- Soundness of the results with respect to the whole text; completeness of them for one place in the text. -/
def o_C30_search_text (b : Buf) (needle : Text) (n : Nat) : Bool :=
  okImp b.data.toStr fun t => imp (needle ≠ []) <| imp ('\n' ∉ needle) <| imp ('\r' ∉ needle) <|
    okAnd (b.search needle) fun r =>
      imp (needle.isPrefixOf (t.drop n) = true)
        (let x := t.take n
         let w := (x.reverse.takeWhile (· != '\n')).reverse
         decide (⟨x.count '\n', blen w⟩ ∈ r))

def o_C30_search_positions (b : Buf) (needle : Text) : Bool :=
  okImp b.data.toStr fun t => imp (needle ≠ []) <| imp ('\n' ∉ needle) <| imp ('\r' ∉ needle) <|
    imp (S.segs t = t.map fun c => [c]) <| imp (∀ c ∈ t, c.utf8Size = 1) <| okImp (b.search needle) fun r =>
      r.all fun p => decide (b.data.inBounds S p = .ok true) &&
        decide (b.data.read S ⟨p, ⟨p.line, p.offset + needle.length⟩⟩ = .ok (some needle))

/-! ## Findings and bookkeeping -/

def o_C50_clipped_delete_not_undone (b : Buf) (d : Doc) (p q : Position) : Bool :=
  imp (b.group = none) <| imp (exists? S.segs d.text (hi p q) = false) <|
    (okAnd (execAll S A b [.deleteRange p q, .undo]) fun b' =>
      decide (b'.data.toStr = .ok (Spec.deleteRange S.segs d.text (lo p q) (hi p q))) &&
      decide (b'.history.previous.length = b.history.previous.length)) &&
    imp (CleanDelete S.segs d.text (lo p q) (hi p q))
      (okAnd (execAll S A b [.deleteRange p q, .undo, .redo]) fun b'' =>
        decide (b''.data.toStr = .ok (Spec.deleteRange S.segs (Spec.deleteRange S.segs d.text (lo p q) (hi p q)) (lo p q) (hi p q))))

def o_C51_crlf_lines_do_not_exist (b : Buf) (d : Doc) (p : Position) : Bool :=
  imp (crlfOnlyB d.text = true) <|
    decide (b.data.inBounds S p = .ok (decide (p.line = 0 ∧ p.offset ≤ (S.segs d.text).length))) &&
    decide (b.lineCount = .ok (countNl d.text + 1))

def o_C51_cannot_move_down (b : Buf) (d : Doc) : Bool :=
  imp (crlfOnlyB d.text = true) <| okAnd (exec S A b (.move .down)) fun b' => decide (b'.cursor.position = b.cursor.position)

def o_C52_crlf_undo_destroys (b : Buf) (d : Doc) (s : Text) : Bool :=
  imp (b.group = none) <| imp (crlfOnlyB d.text = true) <| imp (crlfOnlyB s = true) <| imp ('\n' ∈ s) <|
    imp (CleanInsert S.segs d.text s b.cursor.position) <|
      someImp (locate (S.segs d.text) b.cursor.position) fun (x, _) =>
        okAnd (execAll S A b [.insert s, .undo]) fun b' => decide (b'.data.toStr = .ok x.flatten)

def o_C55_gap_observable (s m r q : Text) : Bool :=
  imp (S.segs s = [s]) <| imp (S.segs (m ++ r) = [m, r]) <| imp (S.segs (s ++ m ++ r) = [s ++ m, r]) <| imp ('\n' ∉ s ++ m ++ r) <| imp (q ≠ []) <|
    let calls : List GapBuffer.Call := [.insert s ⟨0, 0⟩, .toStr, .insert q ⟨0, 2⟩, .toStr]
    decide ((GapBuffer.run S (Alloc.spare 0) (GapBuffer.new (Alloc.spare 0) 0 (m ++ r)) calls).map (·.1) = .ok [.done, .text (s ++ m ++ r), .done, .text (s ++ m ++ r ++ q)]) &&
    decide ((GapBuffer.run S (Alloc.spare (blen s + blen q)) (GapBuffer.new (Alloc.spare (blen s + blen q)) 0 (m ++ r)) calls).map (·.1) =
      .ok [.done, .text (s ++ m ++ r), .done, .text (s ++ m ++ q ++ r)])

def o_C55_mark_undo (b : Buf) (d : Doc) (s : Text) : Bool :=
  imp (b.group = none) <| imp (S.segs s = [s]) <| imp ('\n' ∉ s) <|
    someImp (locate (S.segs d.text) b.cursor.position) fun (x, y) => someImp x.getLast? fun last =>
      imp (S.segs (x.dropLast.flatten ++ last ++ s ++ y.flatten) = x.dropLast ++ (last ++ s) :: y) <|
        okAnd (execAll S A b [.insert s, .undo]) fun b' => decide (b'.data.toStr = .ok (x.flatten ++ s ++ (y.drop 1).flatten))

def o_C53_pending_edits (b : Buf) (c : Cmd) : Bool :=
  someImp b.group fun ops => okImp b.data.toStr fun t => imp (Edits t c) <|
    match c with
    | .reload _ => true
    | c => okImp (exec S A b c) fun b' => decide (b'.history = b.history) && decide (b'.modified = b.modified) &&
      someAnd b'.group fun ops' => decide (ops'.length = ops.length + 1) && decide (ops'.dropLast = ops)

def o_C54_ineffective_edits_count (b : Buf) (d : Doc) (s : Text) : Bool :=
  imp (b.group = none) <|
    let good (c : Cmd) := okAnd (exec S A b c) fun b' => decide (b'.data.toStr = b.data.toStr) &&
      decide (b'.history.previous.length = b.history.previous.length + 1) && decide (b'.history.next = []) && b'.modified
    imp (NothingAhead S.segs d.text b.cursor.position) (good .delete) &&
    imp (exists? S.segs d.text b.cursor.position = false) (good (.insert s))

def o_C56_bookkeeping (b : Buf) (c : Cmd) : Bool :=
  okImp b.data.toStr fun t => okImp (exec S A b c) fun b' =>
    decide (counts b' = (counts b).step (SameText t c) c) && decide (b.modified = !(counts b).unmodified)

def o_C57_new_buffer_modified (cs : List Cmd) : Bool :=
  imp (∀ c ∈ cs, (match c with | .saved => false | .reload _ => false | _ => true) = true) <|
    okImp (execAll S A (Buf.new A 0) cs) fun b => b.modified

def o_C78_read (g : GapBuffer) (t : Text) (a b : Nat) : Bool :=
  imp ('\r' ∉ t) <|
    decide (g.read S (LineRange.new a b).toRange =
      .ok (if max a b < (splitNl t).length then some (asLines (linesBetween (splitNl t) (min a b) (max a b))) else none)) &&
    decide (g.read S (LineRange.new a b).toInclusiveRange =
      .ok (if max a b + 1 < (splitNl t).length then some (asLines (linesBetween (splitNl t) (min a b) (max a b + 1))) else none))

def o_C78_delete (g : GapBuffer) (t : Text) (a b : Nat) : Bool :=
  imp ('\r' ∉ t) <|
    (okAnd (g.delete S (LineRange.new a b).toRange) fun g' => decide (g'.toStr = .ok (unlines (deleteLines (splitNl t) (min a b) (max a b))))) &&
    (okAnd (g.delete S (LineRange.new a b).toInclusiveRange) fun g' =>
      decide (g'.toStr = .ok (unlines (deleteLines (splitNl t) (min a b) (max a b + 1)))))

def o_C78_undo (b : Buf) (d : Doc) (s e : Nat) : Bool :=
  imp (s ≤ e) <| imp (b.group = none) <| imp ('\r' ∉ d.text) <|
    okAnd (execAll S A b [.deleteRange ⟨s, 0⟩ ⟨e, 0⟩, .undo]) fun b' =>
      decide (b'.data.toStr = .ok (if e < (splitNl d.text).length then d.text else unlines (deleteLines (splitNl d.text) s e)))

end Scribe.Oracle
