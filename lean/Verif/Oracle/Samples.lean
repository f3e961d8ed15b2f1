import Verif.Oracle.Again
import Verif.Oracle.Gap
import Verif.Oracle.Buffer
import Verif.Oracle.Rest
import Verif.Oracle.Direct
import Verif.Oracle.Typing
import Verif.Oracle.FindReplace
import Verif.Oracle.Batch
import Verif.Oracle.Unwind
import Verif.Oracle.Guarded
import Verif.Oracle.Cache
import Verif.Oracle.Sheet
import Verif.Oracle.Marks
import Verif.Oracle.Office
import Verif.Oracle.Concurrent
import Verif.Oracle.Exact
import Verif.Oracle.Cost
import Verif.Oracle.Reading
import Verif.Oracle.PathStr
import Verif.Oracle.Program
import Verif.Oracle.Errors
import Verif.Oracle.Editor
import Verif.Oracle.Desktop
import Verif.Oracle.Dialogue
import Verif.Oracle.Overlap
import Verif.Oracle.Windows
import Verif.Oracle.Stream
import Verif.Oracle.Parser
import Verif.Oracle.Resume
import Verif.Oracle.TokenUnwind
import Verif.Oracle.Meddle
import Verif.Oracle.Caller
import Verif.Oracle.Heap
import Verif.Oracle.Held
import Verif.Oracle.BufferReading
import Verif.Oracle.Walk
import Verif.Oracle.Convert
import Verif.Oracle.Hits
import Verif.Oracle.Stray
import Verif.Oracle.Debug
import Verif.Oracle.Splice
import Verif.Demo
/-!
# Samples for the executable forms of the theorems

Pseudo-random inputs for the functions `o_C…`. `report` lists every function with whether it returned `true` on all its samples. In this
library it does so by `Verif/Oracle/Sound*.lean`; `tools/mutate.py` evaluates it for wrong programs.
-/
namespace Scribe.Oracle.Samples
open Spec Props

/-! ## Generators -/

/-- Pseudo-random values. -/
abbrev Gen := StateM Nat

/-- A number below `n`. -/
def below (n : Nat) : Gen Nat := modifyGet fun s =>
  let s := (s * 6364136223846793005 + 1442695040888963407) % 2 ^ 64
  (s / 2 ^ 33 % n, s)

def coin : Gen Bool := return (← below 2) == 0

/-- Nothing, once in `n` times. -/
def maybe {α : Type} (n : Nat) (g : Gen α) : Gen (Option α) := do
  if (← below n) == 0 then return none else return some (← g)

def pick {α : Type} (d : α) (xs : List α) : Gen α := return xs.getD (← below xs.length) d

def listOf {α : Type} (g : Gen α) : Nat → Gen (List α)
  | 0 => pure []
  | n + 1 => return (← g) :: (← listOf g n)

def upTo {α : Type} (n : Nat) (g : Gen α) : Gen (List α) := do listOf g (← below (n + 1))

/-- Letters and newlines mostly, of one to four bytes; sometimes marks, CR and emoji parts. -/
def char : Gen Char := do
  match ← below 12 with
  | 0 => pick 'a' ['\r', '́', '‍', '👨', '🇦', '🇧', '👧']
  | 1 | 2 | 3 => pure '\n'
  | _ => pick 'a' ['a', 'b', 'é', '日', '𝄞', ' ']

/-- No characters that merge. -/
def plainChar : Gen Char := do
  match ← below 4 with
  | 0 => pure '\n'
  | _ => pick 'a' ['a', 'b', 'é', '日', '𝄞', ' ', '👨']

def text : Gen Text := do
  match ← below 8 with
  | 0 => pure []
  | 1 | 2 => upTo 6 char
  | 4 => return (← upTo 6 (pick [] [['a'], ['e', '́'], ['\n'], ['🇦', '🇧'], ['é']])).flatten
  | 3 => return (← upTo 5 (pick [] [['\r', '\n'], ['a'], ['b']])).flatten
  | _ => upTo 8 plainChar

def piece : Gen Text := do
  match ← below 5 with
  | 0 | 1 => upTo 2 char
  | 2 => return (← upTo 3 (pick [] [['a'], ['e', '́'], ['\n'], ['🇦', '🇧'], ['\n', 'e', '́']])).flatten
  | _ => upTo 3 plainChar

def number : Gen Nat := do
  if (← below 16) == 0 then below 40 else below 5

def position : Gen Position := return ⟨← below 5, ← number⟩

/-- A position, often one at which something is. -/
def placeOf (t : Text) : Gen Position := do
  match ← below 4 with
  | 0 => position
  | 1 => return { ← position with line := (← below (t.count '\n' + 1)) }
  | _ => return endPos ((Demo.seg.segs t).take (← below (t.length + 1)))

def S : Segmenter := Demo.seg

/-- Allocates what is asked for or more, depending on the moment. -/
def A : Alloc where
  get := fun k size n => List.replicate (n + (k * 7 + size) % 5) 0xC3
  enough := by simp

/-- A gap buffer that holds the text, with the gap anywhere allowed. -/
def gapOf (t : Text) : Gen GapBuffer := do
  let n ← below (t.length + 1)
  let gap ← upTo 6 (return UInt8.ofNat (← below 256))
  let g : GapBuffer := ⟨enc (t.take n) ++ gap ++ enc (t.drop n), blen (t.take n), gap.length, ← below 3⟩
  if holdsB S g t then return g else return ⟨gap ++ enc t, 0, gap.length, 0⟩

def gapCall (t : Text) : Gen GapBuffer.Call := do
  match ← below 6 with
  | 0 | 1 => return .insert (← piece) (← placeOf t)
  | 2 | 3 => return .delete (← placeOf t) (← placeOf t)
  | 4 => return .read (← placeOf t) (← placeOf t)
  | _ => if ← coin then return .inBounds (← placeOf t) else return .toStr

def direction : Gen Cursor.Move := pick .up [.up, .down, .left, .right, .startOfLine, .endOfLine, .lastLine, .firstLine, .up, .down]

def movement (t : Text) : Gen Cursor.Move := do
  if (← below 4) == 0 then return .to (← placeOf t) else direction

def cursorOf (t : Text) : Gen Cursor := do
  let p ← placeOf t
  return ⟨p, ← pick 0 [p.offset, p.offset, 0, 1, 3, 5]⟩

def cmd (t : Text) : Gen Buf.Cmd := do
  match ← below 20 with
  | 0 | 1 | 2 | 3 => return .insert (← piece)
  | 4 | 5 => return .delete
  | 6 | 7 => return .deleteRange (← placeOf t) (← placeOf t)
  | 8 => return .replace (← text)
  | 9 | 10 => return .undo
  | 11 => return .redo
  | 12 => return .startGroup
  | 13 => return .endGroup
  | 14 | 15 | 16 => return .move (← movement t)
  | 17 => if ← coin then return .setCursor (← placeOf t) else return .move (.to (← placeOf t))
  | 18 => if ← coin then return .setCallback (← coin) else return .saved
  | _ => if ← coin then return .reload (← text) else return .saved

/-- Calls one after the other, with the document they are made on, so that positions are often right and most calls are clean. -/
def cmdsFrom (clean : Bool) : Nat → Doc → Gen (List Buf.Cmd)
  | 0, _ => pure []
  | n + 1, d => do
    let c ← cmd d.text
    if clean && !decide (CleanCmd S.segs d c) then cmdsFrom clean n d
    else return c :: (← cmdsFrom clean n (d.step S.segs c))

def content : Gen (Option Text) := do
  if (← below 4) == 0 then return none else return some (← text)

/-- A session: the content at the start, and calls. -/
def calls (clean : Bool) : Gen (Option Text × List Buf.Cmd) := do
  let c ← content
  return (c, ← cmdsFrom clean (← below 9) (startOf A c).2.1)

/-- The buffer and document after some calls. -/
def reached : Gen (Option (Buf × Doc)) := do
  let (c, cs) ← calls true
  return session S A c cs

/-! ## Checks -/

/-- Runs a check with many seeds. -/
def check (name : String) (n : Nat) (g : Gen Bool) : String × Bool :=
  (name, (List.range n).all fun i => (g.run (i * 7919 + 17)).1)

/-- A gap buffer with the text it holds. -/
@[inline] def withGap (f : GapBuffer → Text → Gen Bool) : Gen Bool := do
  let t ← text
  f (← gapOf t) t

/-- A gap buffer made through the API. -/
@[inline] def withReachable (f : GapBuffer → Text → Gen Bool) : Gen Bool := do
  let t ← text
  let cs ← upTo 4 (gapCall t)
  match GapBuffer.run S A (GapBuffer.new A 0 t) cs with
  | .ok (_, g) => f g t
  | .error _ => pure true

@[inline] def withBuf (f : Buf → Doc → Gen Bool) : Gen Bool := do
  match ← reached with
  | some (b, d) => f b d
  | none => pure true

/-- A buffer after any calls, clean or not. -/
@[inline] def withAnyBuf (f : Buf → Text → Gen Bool) : Gen Bool := do
  let (c, cs) ← calls (← coin)
  match Buf.execAll S A (startOf A c).1 cs with
  | .ok b => match b.data.toStr with
    | .ok t => f b t
    | .error _ => pure true
  | .error _ => pure true

def gapReport : List (String × Bool) := [
  check "C01_no_panic" 300 do let t ← text; return o_C01_no_panic S A (← below 3) t (← upTo 6 (gapCall t)),
  check "C02_contents" 300 do let t ← text; return o_C02_contents S A (← below 3) t (← upTo 4 (gapCall t)) (← placeOf t) (← placeOf t),
  check "C03_insert" 300 (withGap fun g t => return o_C03_insert S A g t (← piece) (← placeOf t)),
  check "C03_insert_again" 200 (withGap fun g t => return o_C03_insert_again S A g t (← piece) (← placeOf t)),
  check "C04_insert_out_of_bounds" 200 (withGap fun g t => return o_C04_insert_out_of_bounds S A g t (← piece) (← placeOf t)),
  check "C05_delete" 400 (withGap fun g t => return o_C05_delete S g t (← placeOf t) (← placeOf t)),
  check "C05_delete_swapped" 200 (withGap fun g t => return o_C05_delete_swapped S g (← placeOf t) (← placeOf t)),
  check "C05_delete_again" 200 (withGap fun g t => return o_C05_delete_again S g t (← placeOf t) (← placeOf t)),
  check "C06_delete_clips" 400 (withGap fun g t => return o_C06_delete_clips S g t (← placeOf t) (← placeOf t)),
  check "C07_read" 400 (withGap fun g t => return o_C07_read S g t (← placeOf t) (← placeOf t)),
  check "C08_in_bounds" 300 (withGap fun g t => return o_C08_in_bounds S g t (← placeOf t)),
  check "C08_in_bounds_lines" 300 (withGap fun g t => return o_C08_in_bounds_lines S g t (← placeOf t)),
  check "C09_gap_unobservable" 300 (withGap fun g t => return o_C09_gap_unobservable S A Demo.loose g (← gapOf t) t (← upTo 4 (gapCall t))),
  check "C10_positions_ordered" 300 (withGap fun g t => return o_C10_positions_ordered S g t (← placeOf t) (← placeOf t) (← below 5)),
  check "C11_read_back" 300 (withGap fun g t => return o_C11_read_back S A g t (← piece) (← placeOf t) (← placeOf t)),
  check "C45_contiguous" 300 (withReachable fun g t => return o_C45_contiguous S A g (← piece) (← placeOf t) (← placeOf t)),
  check "C32_position_order" 300 (return o_C32_position_order (← position) (← position) (← position)),
  check "C32_range" 300 (return o_C32_range (← position) (← position) (← position)),
  check "C33_line_range" 300 (return o_C33_line_range (← below 5) (← below 5) (← below 5) (← position)),
  check "C34_distance" 300 (return o_C34_distance (← position) ⟨← below 3, ← below 3⟩ (← text) (← text)),
  check "C34_distance_is_extent" 300 (return o_C34_distance_is_extent S (← position) (← text)),
  check "C35_line_iterator" 300 (return o_C35_line_iterator (← text) (← below 3)),
  check "C26_move_to" 300 (withReachable fun g t => return o_C26_move_to S g (← cursorOf t) (← placeOf t)),
  check "C26_move_to_text" 300 (withGap fun g t => return o_C26_move_to_text S g t (← cursorOf t) (← placeOf t)),
  check "C26_moves_stay_in_bounds" 300 (withReachable fun g t => return o_C26_moves_stay_in_bounds S g (← cursorOf t) (← upTo 4 (movement t))),
  check "C27_new_cursor" 400 (withGap fun g t => return o_C27_new_cursor S g t (← placeOf t) (← pick [] [[.down, .up], [.up, .down], [.up, .down, .down, .up]])),
  check "C27_vertical" 300 (withGap fun g t => return o_C27_vertical S g t (← below 4) (← below 5) (← upTo 4 (pick .up [.up, .down]))),
  check "C27_vertical_return" 300 (withGap fun g t => return o_C27_vertical_return S g t (← cursorOf t) (← placeOf t) (← upTo 4 (pick .up [.up, .down]))),
  check "C28_left" 300 (withGap fun g t => return o_C28_left S g t (← cursorOf t)),
  check "C28_right" 300 (withGap fun g t => return o_C28_right S g t (← cursorOf t)),
  check "C28_start" 300 (withGap fun g t => return o_C28_start S g t (← cursorOf t)),
  check "C28_end" 300 (withGap fun g t => return o_C28_end S g t (← cursorOf t)),
  check "C29_first_line" 300 (withGap fun g t => return o_C29_first_line S g t (← cursorOf t)),
  check "C29_last_line" 300 (withGap fun g t => return o_C29_last_line S g t (← cursorOf t))]

/-- Calls that may be inside a group. -/
def inGroup (d : Doc) : Nat → Gen (List Buf.Cmd)
  | 0 => pure []
  | n + 1 => do
    let c ← cmd d.text
    if decide (InGroup c) && decide (CleanCmd S.segs d c) then return c :: (← inGroup (d.step S.segs c) n) else inGroup d n

def passive (t : Text) : Nat → Gen (List Buf.Cmd)
  | 0 => pure []
  | n + 1 => do
    let c ← cmd t
    if decide (Passive c) then return c :: (← passive t n) else passive t n

def bufReport : List (String × Bool) := [
  check "C47_no_panic" 300 do let (c, cs) ← calls false; return o_C47_no_panic S A c cs,
  check "C12_undo_reverses" 400 (withBuf fun b d => return o_C12_undo_reverses S A b d (← cmd d.text) (← passive d.text (← below 12))),
  check "C13_snapshot_history" 300 do let (c, cs) ← calls true; return o_C13_snapshot_history S A c cs,
  check "C13_undo_everything" 300 do let (c, cs) ← calls true; return o_C13_undo_everything S A c cs (← below 2),
  check "C13_undo_redo_k" 300 (withBuf fun b _ => return o_C13_undo_redo_k S A b (← below 4)),
  check "C14_undo_redo" 300 (withBuf fun b _ => return o_C14_undo_redo S A b),
  check "C14_redo_undo" 300 (withBuf fun b _ => return o_C14_redo_undo S A b),
  check "C15_edit_clears_redo" 300 (withAnyBuf fun b t => return o_C15_edit_clears_redo S A b (← cmd t)),
  check "C15_group_clears_redo" 300 (withAnyBuf fun b _ => return o_C15_group_clears_redo S A b),
  check "C16_group_is_one_step" 300 (withBuf fun b d => return o_C16_group_is_one_step S A b d (← inGroup { d with group := some [] } 5)),
  check "C16_empty_group" 300 (withAnyBuf fun b _ => return o_C16_empty_group b),
  check "C17_undo_open_group" 300 (withBuf fun b d => return o_C17_undo_open_group S A b d (← inGroup { d with group := some [] } 5)),
  check "C17_undo_empty_group" 300 (withAnyBuf fun b _ => return o_C17_undo_empty_group S A b),
  check "C18_unmodified_is_on_disk" 400 do
    let (c, cs) ← calls true
    let more ← upTo 4 (do
      match ← below 5 with
      | 0 => return .redo
      | 1 => return .insert (← upTo 2 plainChar)
      | _ => return .undo)
    return o_C18_unmodified_is_on_disk S A c (if ← coin then cs ++ .saved :: more else cs),
  check "C18_fresh" 200 (withAnyBuf fun b _ => return o_C18_fresh S A b (← text)),
  check "C19_mark_is_tracked" 300 (withBuf fun b _ => return o_C19_mark_is_tracked S A b (← below 4) (← below 4)),
  check "C19_edits_undone" 300 do
    let (c, cs) ← calls (← coin)
    return o_C19_edits_undone S A c cs (← upTo 3 (cmd (c.getD []))) (← below 4),
  check "C19_edit_modifies" 300 (withAnyBuf fun b t => return o_C19_edit_modifies S A b (← cmd t)),
  check "C23_replace" 300 (withAnyBuf fun b _ => do
    let t ← text
    let c ← cursorOf t
    return o_C23_replace S A (if ← coin then b else { b with cursor := c }) t),
  check "C25_callback_covers_changes" 600 (withBuf fun b d => let b := { b with callback := true }; let d := { d with callback := true }; return o_C25_callback_covers_changes S A b d (← cmd d.text) (← placeOf d.text)),
  check "C25_no_callback" 300 (withBuf fun b d => return o_C25_no_callback S A b d (← cmd d.text)),
  check "C46_cursor_stays_in_bounds" 300 (withBuf fun b d => return o_C46_cursor_stays_in_bounds S A b d (← cmd d.text)),
  check "C46_always_in_bounds" 300 do let (c, cs) ← calls true; return o_C46_always_in_bounds S A c cs,
  check "C31_line_count" 200 (withAnyBuf fun b _ => return o_C31_line_count b),
  check "C31_line_exists" 200 (withBuf fun b _ => return o_C31_line_exists S b (← below 5)),
  check "C30_search" 300 (withAnyBuf fun b _ => return o_C30_search b (← upTo 2 plainChar)),
  check "C30_search_text" 300 (withAnyBuf fun b _ => return o_C30_search_text b (← upTo 2 plainChar) (← below 5)),
  check "C118_bounds" 200 (withBuf fun b _ => return o_C118_bounds S b (← upTo 2 plainChar)),
  check "C118_bounds" 300 do
    let t := (← upTo 8 (pick [] [['x'], ['é'], ['x'], ['\n'], ['x', '\u0301'], ['y']])).flatten
    return o_C118_bounds S (Buf.fromContent A 0 t) (← pick ['x'] [['x'], ['é'], ['x', 'y']]),
  check "C118_column" 200 (withBuf fun b _ => return o_C118_column S b (← upTo 2 plainChar)),
  check "C118_column" 300 do
    let t := (← upTo 8 (pick [] [['x'], ['é'], ['x'], ['\n'], ['x', '\u0301'], ['y']])).flatten
    return o_C118_column S (Buf.fromContent A 0 t) (← pick ['x'] [['x'], ['é'], ['x', 'y']]),
  check "C118_astray" 200 (withBuf fun b _ => return o_C118_astray S b (← upTo 2 plainChar) (← below 3)),
  check "C118_astray" 300 do
    let t := (← upTo 8 (pick [] [['x'], ['é'], ['x'], ['\n'], ['x', '\u0301'], ['y']])).flatten
    return o_C118_astray S (Buf.fromContent A 0 t) (← pick ['x'] [['x'], ['é'], ['x', 'y']]) (← below 3),
  check "C30_search_positions" 300 (withBuf fun b _ => return o_C30_search_positions S b (← upTo 2 plainChar)),
  check "C50_clipped_delete_not_undone" 300 (withBuf fun b d => return o_C50_clipped_delete_not_undone S A b d (← placeOf d.text) (← placeOf d.text)),
  check "C51_crlf_lines_do_not_exist" 300 (withBuf fun b d => return o_C51_crlf_lines_do_not_exist S b d (← placeOf d.text)),
  check "C51_cannot_move_down" 300 (withBuf fun b d => return o_C51_cannot_move_down S A b d),
  check "C52_crlf_undo_destroys" 300 (withBuf fun b d => return o_C52_crlf_undo_destroys S A b d (← pick [] [['a', '\r', '\n'], ['\r', '\n', 'b', '\r', '\n'], ['a', '\n'], ['\r', '\n']])),
  check "C55_gap_observable" 100 (return o_C55_gap_observable S (← pick [] [['e'], ['a'], ['🇦']]) (← pick [] [['́'], ['🇧']]) (← piece) (← piece)),
  check "C55_mark_undo" 400 (withBuf fun b d => return o_C55_mark_undo S A b d (← pick [] [['́'], ['́'], ['🇧'], ['a']])),
  check "C53_pending_edits" 300 (withAnyBuf fun b t => return o_C53_pending_edits S A b (← cmd t)),
  check "C54_ineffective_edits_count" 300 (withBuf fun b d => return o_C54_ineffective_edits_count S A b d (← piece)),
  check "C56_bookkeeping" 400 (withAnyBuf fun b t => return o_C56_bookkeeping S A b (← cmd t)),
  check "C57_new_buffer_modified" 300 do return o_C57_new_buffer_modified S A (← cmdsFrom (← coin) (← below 8) (Doc.new [] false)),
  check "C78_read" 300 (withGap fun g t => return o_C78_read S g t (← below 4) (← below 4)),
  check "C78_delete" 300 (withGap fun g t => return o_C78_delete S g t (← below 4) (← below 4)),
  check "C78_undo" 300 (withBuf fun b d => return o_C78_undo S A b d (← below 4) (← below 5))]

def exactReport : List (String × Bool) := [
  check "C67_zipper" 400 do let t ← text; return o_C67_zipper S A (← below 3) t (← upTo 6 (gapCall t)),
  check "C67_memory" 300 do let t ← text; return o_C67_memory S A (← below 3) t (← upTo 4 (gapCall t)) (← gapCall t),
  check "C80_memory" 150 do let t ← text; return o_C80_memory S (← below 3) t (← upTo 8 (gapCall t)),
  check "C81_counter" 150 do let t ← text; return o_C81_counter S A (← below 3) t (← upTo 6 (gapCall t)),
  check "C81_exact" 300 do let t ← text; return o_C81_exact S A (← below 3) t (← upTo 4 (gapCall t)) (← gapCall t),
  check "C81_call" 300 do let t ← text; return o_C81_call S A (← below 3) t (← upTo 4 (gapCall t)) (← gapCall t),
  check "C81_typing" 200 do let t ← text; return o_C81_typing S (← below 3) t (← upTo 4 (gapCall t)) (← upTo 6 piece),
  check "C108_same" 150 do let t ← text; return o_C108_same S A (← below 3) t (← upTo 6 (gapCall t)),
  check "C108_exact" 600 do
    let t ← text
    let c ← gapCall t
    let r : GapBuffer.Call := .read ⟨0, ← below 3⟩ (← placeOf t)
    let last := if ← coin then c else r
    return o_C108_exact S A (← below 3) t ((← upTo 3 (gapCall t)) ++ [.insert (← piece) (← placeOf t)]) last,
  check "C108_call" 300 do let t ← text; return o_C108_call S A (← below 3) t (← upTo 4 (gapCall t)) (← gapCall t),
  check "C108_append" 150 do let t ← text; return o_C108_append S A (← below 3) t (← upTo 6 piece),
  check "C108_quadratic" 100 do let t ← text; return o_C108_quadratic S A (← below 3) t (← upTo 6 piece),
  check "C112_walk" 300 (withBuf fun b d => return o_C112_walk S A b (← upTo 8 (movement d.text))),
  check "C112_walk" 600 do
    let t := (← upTo 4 (pick [] [['a', 'b', '\n'], ['\n'], ['é', '\n'], ['a', 'b', 'c']])).flatten
    let m : Gen Cursor.Move := do
      let p ← placeOf t
      pick .up [.up, .down, .up, .down, .left, .right, .right, .endOfLine, .startOfLine, .firstLine, .lastLine, .to p]
    return o_C112_walk S A (Buf.fromContent A 0 t) ((← upTo 8 m) ++ [.up, .down]),
  check "C117_walk" 300 (withBuf fun b d => do
    let c : Cursor := ⟨⟨← below 5, ← below 6⟩, ← below 6⟩
    return o_C117_walk S A b c (← upTo 6 (movement d.text))),
  check "C117_walk" 600 do
    let t := (← upTo 4 (pick [] [['a', 'b', '\n'], ['\n'], ['é', '\n'], ['a', 'b', 'c']])).flatten
    let m : Gen Cursor.Move := do
      let p ← placeOf t
      pick .up [.up, .down, .up, .down, .left, .right, .left, .endOfLine, .startOfLine, .firstLine, .lastLine, .to p]
    return o_C117_walk S A (Buf.fromContent A 0 t) ⟨⟨← below 6, ← below 6⟩, ← below 6⟩ (← upTo 6 m),
  check "C117_key" 600 do
    let t := (← upTo 4 (pick [] [['a', 'b', '\n'], ['\n'], ['é', '\n'], ['a', 'b', 'c']])).flatten
    let p ← placeOf t
    let m : Gen Cursor.Move := pick .up [.up, .down, .left, .right, .endOfLine, .startOfLine, .firstLine, .lastLine, .to p, .to ⟨p.line, p.offset + 1⟩]
    return o_C117_key S A (Buf.fromContent A 0 t) ⟨⟨← below 6, ← below 6⟩, ← below 6⟩ (← m),
  check "C117_below" 300 do
    let t := (← upTo 3 (pick [] [['a', 'b', '\n'], ['\n'], ['é', '\n'], ['a', 'b', 'c']])).flatten
    let m : Gen Cursor.Move := pick .up [.up, .down, .left, .right, .endOfLine, .startOfLine]
    return o_C117_below S A (Buf.fromContent A 0 t) ⟨⟨(splitNl t).length + 1 + (← below 2), ← below 6⟩, ← below 6⟩ (← upTo 6 m),
  check "C117_beside" 300 do
    let t := (← text).filter fun c => c != '\r' && c != '\n'
    let m : Gen Cursor.Move := pick .up [.up, .down, .left, .right]
    return o_C117_beside S A (Buf.fromContent A 0 t) ⟨⟨0, (S.segs t).length + 2 + (← below 2)⟩, ← below 6⟩ (← upTo 6 m),
  check "C117_home" 200 (withBuf fun b _ => return o_C117_home S A b ⟨⟨← below 5, ← below 6⟩, ← below 6⟩),
  check "C112_route" 300 (withBuf fun b d => do
    let more ← below 2
    return o_C112_route S A b (← placeOf d.text) (b.cursor.position.line + more) (d.text.length + more)),
  check "C112_lengths" 300 do
    let t := (← text).filter (· != '\r')
    let p ← placeOf t
    let u := t.map fun c => if c == '\n' then c else 'z'
    let start (t : Text) : Buf :=
      match Buf.exec S A (Buf.fromContent A 0 t) (.move (.to p)) with
      | .ok b => b
      | .error _ => Buf.fromContent A 0 t
    return o_C112_lengths S A (start t) (start u) (← upTo 8 (movement t)),
  check "C114_format" 100 do
    let n ← below 300
    let m ← pick 0 [0, 9, 10, 100, 12345]
    return o_C114_format ⟨n, m⟩ ⟨m, n⟩ ⟨⟨n, m⟩, ⟨m, n⟩⟩ ⟨n, m⟩,
  check "C114_readable" 600 do
    let chunk : Gen Text := pick [] [['"'], ['\\'], ['u', '{'], ['}'], ['e', '9'], ['é'], ['\n'], ['n'], ['\t'], ['t'], ['\x00'], ['0'], ['\r'], ['r'], ['👨']]
    let v := (← upTo 4 chunk).flatten
    let i ← below 4
    let w := v.take i ++ (match v[i]? with
      | some '\n' => ['\\', 'n'] | some '\t' => ['\\', 't'] | some '\x00' => ['\\', '0'] | some '\r' => ['\\', 'r'] | some '"' => ['\\', '"'] | some '\\' => ['\\', '\\']
      | some 'é' => ['\\', 'u', '{', 'e', '9', '}'] | some _ => ['"'] | none => []) ++ v.drop (i + 1)
    let num : Gen Nat := pick 0 [0, 1, 2, 10, 11, 12, 110, 21]
    let p : Position := ⟨← num, ← num⟩
    let q : Position := ⟨← num, ← num⟩
    let x : Token Nat ← pick .newline [.newline, .lexeme v (← num) p, .lexeme v (← num) p]
    let y : Token Nat ← pick .newline [.newline, .lexeme w (← num) p, .lexeme w (← num) q, .lexeme v (← num) p, .lexeme v (← num) q]
    let k ← pick none [none, some 0, some 2]
    return o_C114_readable (fun c => c.toNat < 200) k p q x y && o_C114_readable (fun _ => true) k p q y x && o_C114_one_line (fun c => c.toNat < 200) y &&
      o_C114_one_line (fun _ => true) x,
  check "C114_readable" 100 do
    let p : Position := ⟨← below 3, ← below 3⟩
    let plain (c : Char) : Bool := 31 < c.toNat
    let out := (Debug.token plain scopeB none (.lexeme ['a'] 0 p)).dropWhile (· != '"')
    let (v, w) ← pick ([], []) [(['\n'], ['\\', 'n']), (['\\'], ['\\', '\\']), (['"'], ['\\', '"']), (['\x01', '2'], ['\x12']), (['\x01'], ['\\', 'u', '{', '1', '}']),
      (['a'], 'a' :: out.drop 2), (['\x00'], ['\\', '0']), (['\t'], ['\\', 't']), (['\r'], ['\\', 'r'])]
    return o_C114_readable plain none p p (.lexeme v 0 p) (.lexeme w 0 p) && o_C114_readable plain none p p (.lexeme w 0 p) (.lexeme v 0 p),
  check "C111_exact" 900 do
    let (c, cs) ← calls (← coin)
    let t := c.getD []
    let last ← match ← below 4 with
      | 0 => pure (.move (← movement t))
      | 1 => pick .undo [.undo, .redo, .delete, .replace (← text), .replace t]
      | _ => cmd t
    let group := [.startGroup, .insert (← piece), .insert (← piece), .delete, .endGroup]
    return o_C111_exact S A (← below 3) c (cs ++ (← pick [] [[], [.undo], group, group ++ [.undo]])) last,
  check "C111_call" 300 do
    let (c, cs) ← calls (← coin)
    return o_C111_call S A (← below 3) c cs (← cmd (c.getD [])),
  check "C111_steps" 300 do
    let (c, cs) ← calls (← coin)
    return o_C111_steps S A (← below 3) c (if ← coin then cs else cs ++ [.undo]),
  check "C111_end" 200 do
    let (c, cs) ← calls (← coin)
    return o_C111_end S A (← below 3) c (cs ++ [.move .lastLine, .move .endOfLine]) (← piece),
  check "C68_recipes" 500 do
    let (c, cs) ← calls (← coin)
    return o_C68_recipes S A (← below 3) c (if ← coin then .setCallback true :: cs else cs) (← placeOf (c.getD [])),
  check "C69_edits_leave_cursor" 300 do
    let (c, cs) ← calls (← coin)
    let (_, cs') ← calls (← coin)
    let keep := fun c => !decide (Swaps c)
    return o_C69_edits_leave_cursor S A (← below 3) c (cs.filter keep) (cs'.filter fun c => keep c && !decide (MovesCursor c)),
  check "C69_typing_lost" 300 (withBuf fun b d => do
    match Buf.exec S A b (.setCursor (← position)) with
    | .ok b' => return o_C69_typing_lost S A b' d (← upTo 3 piece)
    | .error _ => return true)]

/-! ## Ordinary text -/

def ordinaryChunk : Gen Text := pick ['a'] [['a'], ['é'], ['日'], ['\n'], ['e', '́'], ['🇦', '🇧'], ['👨', '‍', '👧'], ['b'], ['🇦'], ['\r', '\n']]
def ordinaryText : Gen Text := return (← upTo 4 ordinaryChunk).flatten

def ordinaryCmd (t : Text) : Gen Buf.Cmd := do
  match ← cmd t with
  | .insert _ => return .insert (← ordinaryText)
  | .replace _ => return .replace (← ordinaryText)
  | .reload _ => return .reload (← ordinaryText)
  | .deleteRange _ _ => return .delete
  | .startGroup => return .undo
  | c => return c

def ordinaryReport : List (String × Bool) := [
  check "C49_gap_buffer" 300 do
    let t ← ordinaryText
    let cs ← upTo 5 (gapCall t)
    let cs ← cs.mapM fun c => match c with | .insert _ p => return GapBuffer.Call.insert (← ordinaryText) p | c => return c
    return o_C49_gap_buffer S A Demo.table 0 t cs,
  check "C49_editing_session" 300 do
    let t ← ordinaryText
    return o_C49_editing_session S A Demo.table (if ← coin then none else some t) (← upTo 6 (ordinaryCmd t)) (← below 2)]

/-- A buffer holding ordinary text, its cursor anywhere. -/
@[inline] def withOrdinary (f : Buf → Doc → Gen Bool) : Gen Bool := do
  let t ← ordinaryText
  let cs ← upTo 3 (ordinaryCmd t)
  let p ← placeOf t
  let b ← coin
  match session S A (some t) (cs ++ [if b then .move (.to p) else .move .lastLine]) with
  | some (b, d) => f b d
  | none => pure true

def typingReport : List (String × Bool) := [
  check "C13_undo_edits" 400 (withBuf fun b d => do
    let cs ← inGroup { d with group := none } 6
    return o_C13_undo_edits S A b d (cs.filter fun c => decide (IsEdit c ∨ Passive c))),
  check "C85_typing" 300 (withOrdinary fun b _ => return o_C85_typing S A Demo.table b (← ordinaryText)),
  check "C85_undo_typing" 300 (withOrdinary fun b _ => return o_C85_undo_typing S A Demo.table b (← ordinaryText)),
  check "C85_erasing" 300 (withOrdinary fun b _ => return o_C85_erasing S A Demo.table b (← below 5)),
  check "C85_deleting" 300 (withOrdinary fun b _ => return o_C85_deleting S A Demo.table b (← below 5))]

/-- Letters and newlines. -/
def letters (n : Nat) : Gen Text := upTo n (pick 'a' ['a', 'a', 'b', '\n'])

/-- A buffer holding text of single bytes. -/
@[inline] def withLetters (f : Buf → Gen Bool) : Gen Bool := do
  let t ← letters 8
  let cs := [.insert (← letters 2), .move (.to (← placeOf t)), .delete, .move .down]
  match session S A (some t) (← upTo 3 (pick .undo cs)) with
  | some (b, _) => f b
  | none => pure true

def findReport : List (String × Bool) := [
  check "C86_replace_one" 300 (withLetters fun b => return o_C86_replace_one S A Demo.table b ((← letters 2).filter (· != '\n')) (← letters 3)),
  check "C86_replace_all" 300 (withLetters fun b => return o_C86_replace_all S A Demo.table b ((← letters 3).filter (· != '\n')) (← letters 3)),
  check "C86_elsewhere" 300 do
    let line : Nat → Gen Text := fun n => upTo n (pick 'a' ['a', 'é', 'b', 'é'])
    let u ← letters 3
    return o_C86_elsewhere S A Demo.table 0 (if u = [] then [] else u ++ ['\n']) (← line 3) ('a' :: (← line 1)) (← line 4) (← letters 2),
  check "C86_undo" 300 (withLetters fun b => return o_C86_undo S A Demo.table b ((← letters 3).filter (· != '\n')) (← letters 3))]

/-- Edits for the clusters of a text, and what comes after them. -/
def carve : Nat → List Text → Gen (List Piece × Text)
  | 0, cs => return ([], cs.flatten)
  | n + 1, cs => do
    let i ← below 3
    let j ← below 3
    let r ← carve n (cs.drop (i + j))
    return (⟨(cs.take i).flatten, ((cs.drop i).take j).flatten, ← ordinaryText⟩ :: r.1, r.2)

@[inline] def withPieces (f : Buf → List Piece → Text → Bool) : Gen Bool := withOrdinary fun b _ => do
  let t := match b.data.toStr with | .ok t => t | .error _ => []
  let (ps, rest) ← carve (← below 4) (S.segs t)
  return f b ps rest

def batchReport : List (String × Bool) := [
  check "C88_backward" 300 (withPieces fun b ps rest => o_C88_backward S A Demo.table b ps rest),
  check "C88_forward" 300 (withPieces fun b ps rest => o_C88_forward S A Demo.table b ps rest),
  check "C88_undo" 300 (withPieces fun b ps rest => o_C88_undo S A Demo.table b ps rest),
  check "C89_cut_paste" 300 (withOrdinary fun b _ => return o_C89_cut_paste S A Demo.table b (← below 6) (← below 4) (← below 6))]

/-! ## Callbacks that panic -/

/-- A buffer with or without a callback, after calls and a group that may have been undone. -/
@[inline] def withFate (f : Unwind.Fate → Buf → Text → Gen Bool) : Gen Bool := withAnyBuf fun b t => do
  let cs ← upTo 4 (cmd t)
  let b := { b with callback := ← below 8 >>= fun n => pure (n != 0) }
  let k ← below 4
  let more : List Buf.Cmd := match ← below 4 with
    | 0 => []
    | 1 => .startGroup :: cs
    | 2 => .startGroup :: cs ++ [.endGroup]
    | _ => .startGroup :: cs ++ [.endGroup, .undo]
  let m ← below 2
  match Buf.execAll S A b more with
  | .ok b => f (if m == 0 then fun n => n == b.log.length + k else fun n => n % (k + 1) == 0) b t
  | .error _ => pure true

/-- Mostly undo and redo. -/
def orUndo (t : Text) : Gen Buf.Cmd := do
  match ← below 4 with
  | 0 => return .undo
  | 1 => return .redo
  | _ => cmd t

/-- A replacement with the cursor anywhere. -/
def replaceAt (b : Buf) : Gen (Buf × Buf.Cmd) := do
  let b := { b with cursor := { b.cursor with position := ⟨← below 3, ← below 4⟩ }, callback := ← coin }
  match b.data.toStr with
  | .ok t => if ← coin then return (b, .replace t) else return (b, .replace (← text))
  | .error _ => return (b, .replace (← text))

def unwindReport : List (String × Bool) := [
  check "C90_goes_on" 300 do
    let t ← text
    let k ← below 4
    return o_C90_goes_on S A (fun n => n % (k + 1) == 0) (← below 3) t (.setCallback true :: (← upTo 8 (cmd t))),
  check "C90_returned" 300 (withFate fun fate b t => return o_C90_returned S A fate b (← cmd t)),
  check "C90_quiet" 300 (withFate fun fate b t => return o_C90_quiet S A fate b (← cmd t)),
  check "C90_quiet" 200 (withFate fun fate b _ => do let (b, c) ← replaceAt b; return o_C90_quiet S A fate b c),
  check "C90_unwound_edit" 200 (withFate fun fate b _ => do let (b, c) ← replaceAt b; return o_C90_unwound_edit S A fate b c),
  check "C90_unwound_edit" 400 (withFate fun fate b t => return o_C90_unwound_edit S A fate b (← cmd t)),
  check "C90_only_edits" 300 (withFate fun fate b t => return o_C90_only_edits S A fate b (← cmd t)),
  check "C90_reports" 400 (withFate fun fate b t => return o_C90_reports S A fate b (← orUndo t)),
  check "C90_unwound_undo" 400 (withFate fun fate b _ => return o_C90_unwound_undo S A fate b),
  check "C90_unwound_redo" 400 (withFate fun fate b _ => return o_C90_unwound_redo S A fate b)]

/-! ## Conversions that panic -/

def conv (t : Text) : Gen Unwind.Conv := do
  let s ← if ← coin then text else pure t
  match ← below 5 with
  | 0 => return ⟨none, some s⟩
  | 1 => return ⟨some s, none⟩
  | 2 => return ⟨some s, some (← text)⟩
  | _ => return ⟨some s, some s⟩

def convCmd (t : Text) : Gen Unwind.ConvCmd := do
  match ← below 4 with
  | 0 => return .insert (← conv t)
  | 1 => return .replace (← conv t)
  | _ => return .cmd (← cmd t)

def convReport : List (String × Bool) := [
  check "C119_untouched" 300 (withFate fun fate b t => return o_C119_untouched S A fate b (← convCmd t)),
  check "C119_converted" 300 (withFate fun fate b t => return o_C119_converted S A fate b (← convCmd t)),
  check "C119_untouched" 200 (withFate fun fate b t => return o_C119_untouched S A fate b (.replace (← conv (match b.data.toStr with | .ok t => t | .error _ => t)))),
  check "C119_converted" 200 (withFate fun fate b t => return o_C119_converted S A fate b (.replace (← conv (match b.data.toStr with | .ok t => t | .error _ => t)))),
  check "C119_unneeded" 200 (withFate fun fate b t => return o_C119_unneeded S A fate b (← conv (match b.data.toStr with | .ok t => t | .error _ => t))),
  check "C119_session" 400 do
    let t ← text
    let k ← below 4
    return o_C119_session S A (fun n => n % (k + 1) == 0) (← below 3) (if ← coin then none else some t) (.cmd (.setCallback true) :: (← upTo 8 (convCmd t)))]

/-! ## Guards that the caller holds -/

def guard : Gen Guarded.Guard := do
  match ← below 5 with
  | 0 => return .free
  | 1 | 2 => return .shared
  | _ => return .exclusive

/-- A program with guards. -/
def guardSteps (t : Text) : Gen (List Guarded.Step) := do
  let ss ← upTo 8 do
    let c ← orUndo t
    let g ← guard
    return if (← below 3) == 0 then Guarded.Step.hold g else .call c
  return ss

def guardReport : List (String × Bool) := [
  check "C110_exact" 900 (withFate fun _ b t => return o_C110_exact S A (← guard) b (← orUndo t)),
  check "C110_exact" 300 (withFate fun _ b _ => do let (b, c) ← replaceAt b; return o_C110_exact S A (← guard) b c),
  check "C110_goes_on" 400 do
    let t ← text
    return o_C110_goes_on S A (← guard) (← below 3) t (← guardSteps t) (← orUndo t),
  check "C110_unwound" 600 (withFate fun _ b t => return o_C110_unwound S A (← guard) b (← orUndo t)),
  check "C110_cells" 900 (withFate fun _ b t => do
    let n ← below 3
    return o_C110_cells S A n ((← below 4) == 0) b (← orUndo t)),
  check "C110_cells" 300 (withFate fun _ b _ => do
    let (b, c) ← replaceAt b
    return o_C110_cells S A (← below 3) ((← below 4) == 0) b c),
  check "C110_twice" 300 (withAnyBuf fun b _ => return o_C110_twice S A (← guard) b (← text))]

/-! ## Files -/

def component : Gen Comp := do
  match ← below 8 with
  | 0 => pure .cur
  | 1 => pure .parent
  | _ => return .normal (enc (← pick [] ["a".toList, "b".toList, "a.rs".toList, ".rs".toList, "Makefile".toList, "a.b.rs".toList, "a.".toList]))

def path : Gen Path := return .root :: (← upTo 2 component)

def fileBuf : Gen (Option (FileBuf Nat)) := do
  let (c, cs) ← calls false
  match Buf.execAll S A (startOf A c).1 cs with
  | .ok b => return some ⟨b, ← maybe 2 (below 3), ← maybe 4 path, ← maybe 2 (below 3)⟩
  | .error _ => return none

def write : Gen WriteRes := do
  match ← below 6 with
  | 0 => pure .interrupted
  | 1 => if (← below 4) == 0 then pure .failed else pure (.wrote 0)
  | _ => return .wrote (← below 6)

def saveEnv : Gen SaveEnv := do
  let create ← pick none [none, some none, some (some 0), some (some 1), some (some 0), some (some 1)]
  if ← coin then return ⟨create, (← upTo 20 write)⟩
  else return ⟨create, List.replicate 40 (.wrote (1 + (← below 5)))⟩

def disk : Gen Disk := do
  let a ← text
  let b ← text
  return fun n => match n with | 0 => some (enc a) | 1 => some (enc b) | _ => none

def bytes : Gen Bytes := do
  if ← coin then return enc (← text) else upTo 6 (pick 0 [0x61, 0xC3, 0xA9, 0x0A, 0xFF, 0xE6, 0x97, 0xA5])

def fs : Gen Fs := do
  let a ← bytes
  let p ← path
  return ⟨fun q => if q.length % 2 = 0 then none else some a, fun q => if q.length = 1 then none else if q.length % 2 = 0 then some p else some q⟩

/-- Everything can be read. -/
def openFs : Gen Fs := do
  let a ← text
  return ⟨fun _ => some (enc a), fun q => some (q.filter fun c => c ≠ .cur)⟩

def someFs : Gen Fs := do if ← coin then fs else openFs

@[inline] def withFile (f : FileBuf Nat → Gen Bool) : Gen Bool := do
  match ← fileBuf with
  | some b => f b
  | none => pure true

def pathString : Gen Bytes := upTo 8 (pick 47 [47, 47, 46, 46, 97, 98])

def fileReport : List (String × Bool) := [
  check "C20_save" 300 (withFile fun b => return o_C20_save b (← saveEnv) (← disk) (← below 3)),
  check "C20_save_succeeds" 300 (withFile fun b => return o_C20_save_succeeds b (← saveEnv) (← disk)),
  check "C20_save_outcome" 600 (withFile fun b => return o_C20_save_outcome b (← saveEnv) (← disk)),
  check "C21_after_crash" 300 (withFile fun b => return o_C21_after_crash A b (← saveEnv) (← disk) (← path) (← path)),
  check "C109_meaning" 400 do return o_C109_meaning (← pathString),
  check "C109_file_name" 400 do return o_C109_file_name (← pathString),
  check "C109_same" 200 do return o_C109_same (← pathString) (← pathString),
  check "C109_strip" 400 do
    let w ← pathString
    let s ← pathString
    return o_C109_strip (if ← coin then s else w ++ 47 :: s) w,
  check "C109_trimmed" 400 do
    let w ← pathString
    let s ← pathString
    return o_C109_trimmed (if ← coin then s else w ++ 47 :: s) w,
  check "C109_canonical" 300 do
    let name : Gen Bytes := do return (← pick [97] [[97], [97], [46, 97], [46, 46, 46], [98, 46], [97, 98]])
    let ws ← upTo 2 name
    let rs ← upTo 3 name
    return o_C109_canonical ws (if ← coin then rs else ws ++ rs),
  check "C94_new" 2 do return o_C94_new A (← below 3),
  check "C94_byte_names" 400 do
    let name ← upTo 5 (pick 46 [46, 46, 97, 98, 0xc3, 0xa9, 97])
    let p : Path := if ← coin then [.root, .normal name] else [.normal name, .parent]
    let p : Path := if name.isEmpty then [.root] else p
    return o_C94_byte_names ⟨Buf.new A 0, none, some p, none⟩,
  check "C21_crash_points" 300 (withFile fun b => return o_C21_crash_points b (← saveEnv) (← disk) (← below 3)),
  check "C21_create_fails" 300 (withFile fun b => return o_C21_create_fails b (← saveEnv) (← disk)),
  check "C21_not_atomic" 100 (withFile fun b => return o_C21_not_atomic b (← disk) (← below 3)),
  check "C22_load_saved" 300 (withFile fun b => return o_C22_load_saved A b (← saveEnv) (← disk) (← path) (← path)),
  check "C22_save_loaded" 300 (return o_C22_save_loaded A (← bytes) (← path) (← path) (← saveEnv) (← disk)),
  check "C22_invalid_refused" 200 (withFile fun b => return o_C22_invalid_refused S A b (← bytes) (← path)),
  check "C24_reload" 300 (withFile fun b => do if ← coin then return o_C24_reload S A b (← fs) else return o_C24_reload S A b (← openFs)),
  check "C24_reload_can_be_undone" 200 (withFile fun b => return o_C24_reload_can_be_undone S A b (← openFs))]

/-! ## Tokens -/

/-- A highlighter with events as given, by position in the line, in characters; `3` pops. The scope stack fails on popping when empty if
`strict`; the parser fails on the line number `bad`. -/
def highlighter (evs : List (List (Nat × Nat))) (strict : Bool) (bad : Nat) : Highlighter where
  Parser := Nat
  Scopes := List Nat
  Op := Nat
  Err := Nat
  parser := 0
  scopes := []
  parse := fun n line => if n = bad then (n + 1, .error n) else
    (n + 1, .ok ((evs.getD (n % (evs.length + 1)) []).map fun e => (blen (line.take e.1), e.2)))
  apply := fun k op => if op = 3 then match k with | [] => (if strict then [9] else [], if strict then some 0 else none) | _ :: k => (k, none) else (op :: k, none)

instance (evs strict bad) : DecidableEq (highlighter evs strict bad).Scopes := inferInstanceAs (DecidableEq (List Nat))
instance (evs strict bad) : DecidableEq (highlighter evs strict bad).Err := inferInstanceAs (DecidableEq Nat)

/-- The same with the offsets taken as bytes, whatever the line is. -/
def wild (evs : List (List (Nat × Nat))) (strict : Bool) (bad : Nat) : Highlighter :=
  { highlighter evs strict bad with
    parse := fun (n : Nat) _ => if n = bad then ((n + 1 : Nat), .error n) else ((n + 1 : Nat), .ok (evs.getD (n % (evs.length + 1)) [])) }

instance (evs strict bad) : DecidableEq (wild evs strict bad).Scopes := inferInstanceAs (DecidableEq (List Nat))
instance (evs strict bad) : DecidableEq (wild evs strict bad).Err := inferInstanceAs (DecidableEq Nat)

/-- The same with a parser that only looks at the line. -/
def still (evs : List (List (Nat × Nat))) (strict : Bool) (bad : Nat) : Highlighter :=
  { highlighter evs strict 1000 with
    parse := fun (n : Nat) line => if line.length = bad then ((n : Nat), .error line.length) else
      ((n : Nat), .ok ((evs.getD (line.length % (evs.length + 1)) []).map fun e => (blen (line.take e.1), e.2))) }

instance (evs strict bad) : DecidableEq (still evs strict bad).Scopes := inferInstanceAs (DecidableEq (List Nat))
instance (evs strict bad) : DecidableEq (still evs strict bad).Parser := inferInstanceAs (DecidableEq Nat)
instance (evs strict bad) : DecidableEq (still evs strict bad).Err := inferInstanceAs (DecidableEq Nat)
instance (evs strict bad) : DecidableEq (highlighter evs strict bad).Parser := inferInstanceAs (DecidableEq Nat)

/-- Events, mostly in order. -/
def eventLists : Gen (List (List (Nat × Nat))) := do
  upTo 3 do
    let es ← upTo 4 (return (← below 7, ← below 4))
    if (← below 4) == 0 then return es else return es.mergeSort fun a b => a.1 ≤ b.1

def tokenReport : List (String × Bool) := [
  check "C36_tokens_are_lossless" 400 do
    let strict ← coin
    let bad ← below 12
    return o_C36_tokens_are_lossless S (highlighter (← eventLists) strict bad) true (← text),
  check "C36_no_failure" 400 (return o_C36_tokens_are_lossless S (highlighter (← eventLists) false 1000) false (← text)),
  check "C37_token_positions" 400 (return o_C37_token_positions S (highlighter (← eventLists) (← coin) (← below 12)) (← text) 60 (← below 8)),
  check "C37_positions_in_buffer" 400 (return o_C37_positions_in_buffer S (highlighter (← eventLists) (← coin) (← below 12)) (← text) 60 (← below 8)),
  check "C48_token_scopes" 400 (return o_C48_token_scopes S (highlighter (← eventLists) (← coin) (← below 12)) (← text) 60 (← below 8)),
  check "C70_empty_lexemes" 400 (return o_C70_empty_lexemes S (highlighter (← eventLists) (← coin) (← below 12)) (← text) 60 (← below 8)),
  check "C70_fused" 300 (return o_C70_fused S (highlighter (← eventLists) (← coin) (← below 12)) (← text) 60),
  check "C70_never_panics" 300 (return o_C70_never_panics S (highlighter (← eventLists) (← coin) (← below 12)) (← text) (← below 30)),
  check "C71_scope_of_every_byte" 400 (return o_C71_scope_of_every_byte S (highlighter (← eventLists) (← coin) (← below 12)) (← text) 60 (← below 8)),
  check "C101_stream" 400 (return o_C101_stream S (highlighter (← eventLists) (← coin) (← below 12)) (← text)),
  check "C101_error" 400 (return o_C101_error S (highlighter (← eventLists) (← coin) (← below 12)) (← text)),
  check "C102_any" 600 (return o_C102_any S (wild (← eventLists) (← coin) (← below 12)) (← text)),
  check "C102_prefix" 600 (return o_C102_prefix S (wild (← eventLists) (← coin) (← below 12)) (← text) (← below 8)),
  check "C103_calls" 800 (return o_C103_calls S (wild (← eventLists) (← coin) (← below 12)) (← text) (← below 14)),
  check "C103_pieces" 400 (return o_C103_pieces S (wild (← eventLists) (← coin) (← below 12)) (← text) (← below 14) (← below 14)),
  check "C107_calls" 800 do
    let k ← below 3
    return o_C107_calls S (wild (← eventLists) (← coin) (← below 12)) (fun (e : Nat) => e % 3 == k) (← text) (← below 14),
  check "C107_same" 800 do
    let k ← below 3
    return o_C107_same S (wild (← eventLists) (← coin) (← below 12)) (fun (e : Nat) => e % 3 == k) (← coin) (← text) (← below 10),
  check "C107_forgotten" 400 (return o_C107_forgotten S (wild (← eventLists) (← coin) (← below 12)) (← text)),
  check "C107_pieces" 400 do
    let k ← below 3
    return o_C107_pieces S (wild (← eventLists) (← coin) (← below 12)) (fun (e : Nat) => e % 3 == k) (← text) 14 (← below 14)]

/-! ## Workspaces -/

def syntaxes : Syntaxes Nat where
  find := fun t => if t = "rs".toList then some 5 else if t = "Makefile".toList then some 6 else none
  plain := 9

def simpleBuf : Gen (FileBuf Nat) := do
  return ⟨Buf.fromContent A 0 (← text), ← maybe 2 (below 3), ← maybe 4 path, ← maybe 2 (below 3)⟩

def rename : Gen (FileBuf Nat → FileBuf Nat) := do
  let p ← path
  return fun b => { b with path := some p }

def retext : Gen (FileBuf Nat → FileBuf Nat) := do
  let t ← text
  return fun b => { b with buf := Buf.fromContent A 1 t }

def reid : Gen (FileBuf Nat → FileBuf Nat) := do
  let n ← below 4
  let y ← below 3
  return fun b => { b with id := some n, syn := if y = 0 then none else some y }

/-- `0`: any call; `1`: calls that keep ids and syntaxes; `2`: calls that only open files. -/
def wsCall (kind : Nat) : Gen (Workspace.Call Nat) := do
  match ← below 12 with
  | 0 | 1 | 2 => if kind = 2 then return .openPath 0 (← openFs) (← fs) (← openFs) (← path) else return .add (← simpleBuf)
  | 3 | 4 =>
    if kind = 0 then return .openPath 0 (← fs) (← someFs) (← someFs) (← path)
    else return .openPath 0 (← openFs) (← openFs) (← openFs) (← path)
  | 5 => return .close
  | 6 | 7 => return .next
  | 8 | 9 => return .previous
  | 10 => return .updateSyntax
  | _ => match kind with
    | 0 => return .edit (← reid)
    | 1 => return .edit (← rename)
    | _ => return .edit (← retext)

@[inline] def withCalls (kind : Nat) (f : Path → List (Workspace.Call Nat) → Gen Bool) : Gen Bool := do
  let first ← upTo 4 (if kind = 2 then return .openPath 0 (← openFs) (← openFs) (← openFs) (← path) else return .add (← simpleBuf))
  f (← pick [.root] [[.root], [.root, .normal [97]], [.root, .normal [98]]]) (first ++ (← upTo 7 (wsCall kind)))

def selecting : Gen (Workspace.Call Nat) := do
  match ← below 3 with
  | 0 => pure .next
  | 1 => pure .previous
  | _ => return .openPath 0 (← openFs) (← openFs) (← openFs) (← path)

def workspaceReport : List (String × Bool) := [
  check "C38_workspace_is_a_list" 300 (withCalls 0 fun r cs => return o_C38_workspace_is_a_list A syntaxes r cs (← below 5)),
  check "C38_results" 300 (withCalls 0 fun r cs => return o_C38_results A syntaxes r cs (← wsCall 0)),
  check "C39_others_untouched" 300 (withCalls 0 fun r cs => return o_C39_others_untouched A syntaxes r cs (← wsCall 0)),
  check "C39_coming_back" 300 (withCalls 2 fun r cs => return o_C39_coming_back A syntaxes r cs (← upTo 4 selecting)),
  check "C40_cycle" 200 (withCalls 0 fun r cs => return o_C40_cycle A syntaxes r cs),
  check "C41_ids_distinct" 300 (withCalls 1 fun r cs => return o_C41_ids_distinct A syntaxes r cs),
  check "C41_ids_never_reused" 300 (withCalls 1 fun r cs => return o_C41_ids_never_reused A syntaxes r cs (← upTo 5 (wsCall 1)) (← simpleBuf)),
  check "C42_no_duplicates" 300 (withCalls 2 fun r cs => return o_C42_no_duplicates A syntaxes r cs),
  check "C42_open_selects" 400 (withCalls 2 fun r cs => return o_C42_open_selects A syntaxes r cs (← openFs) (← openFs) (← openFs) (← path)),
  check "C42_failed_open" 300 (withCalls 0 fun r cs => return o_C42_failed_open A syntaxes r cs (← fs) (← fs) (← fs) (← path)),
  check "C43_buffer_paths" 300 (withCalls 0 fun r cs => return o_C43_buffer_paths A syntaxes r cs),
  check "C43_new" 100 (return o_C43_new (← fs) (← path) (if (← below 5) = 0 then none else some syntaxes)),
  check "C43_relative" 300 (do
    let p ← pick [] [[], [.root], [.root, .normal [97]]]
    return o_C43_relative ⟨p, [], 0, none, none, syntaxes⟩ (← simpleBuf)),
  check "C44_add_syntax" 300 (withCalls 0 fun r cs => return o_C44_add_syntax A syntaxes r cs (← simpleBuf)),
  check "C44_tokens" 300 (withCalls 1 fun r cs => return o_C44_tokens A syntaxes r cs),
  check "C44_update_syntax" 300 (withCalls 0 fun r cs => return o_C44_update_syntax A syntaxes r cs)]

/-! ## Machine arithmetic -/

/-- A width of addresses, often so small that the limits are met. -/
def word : Gen Machine.Word := do
  match ← below 6 with
  | 0 => return ⟨2, by decide⟩
  | 1 => return ⟨3, by decide⟩
  | 2 => return ⟨4, by decide⟩
  | 3 => return ⟨5, by decide⟩
  | 4 => return Machine.word32
  | _ => return Machine.word64

def inWord (g : [Machine.Word] → Gen Bool) : Gen Bool := do
  let w ← word
  @g w

section
variable [Machine.Word]

def huge : Gen Nat := do
  match ← below 4 with
  | 0 => return 2 ^ Machine.Word.bits - 1 - (← below 3)
  | 1 => return 2 ^ (Machine.Word.bits - 1) - 1 - (← below 2)
  | _ => below 4

def hugePosition : Gen Position := return ⟨← huge, ← huge⟩

def hugeGapCall (t : Text) : Gen GapBuffer.Call := do
  match ← gapCall t with
  | .insert s p => if (← below 4) == 0 then return .insert s (← hugePosition) else return .insert s p
  | .delete p q => if (← below 4) == 0 then return .delete p (← hugePosition) else return .delete p q
  | .read p q => if (← below 4) == 0 then return .read p (← hugePosition) else return .read p q
  | .inBounds p => if (← below 4) == 0 then return .inBounds (← hugePosition) else return .inBounds p
  | c => return c

def hugeCmd (t : Text) : Gen Buf.Cmd := do
  match ← cmd t with
  | .deleteRange p q => if (← below 4) == 0 then return .deleteRange p (← hugePosition) else return .deleteRange p q
  | .setCursor p => if (← below 4) == 0 then return .setCursor (← hugePosition) else return .setCursor p
  | c => return c

end

/-- Sessions on texts of newlines only, with an allocator that wastes nothing: the numbers of lines reach the limits. -/
def lineCalls : Gen (Option Text × List Buf.Cmd) := do
  let n ← below 16
  let cs ← upTo 6 do
    match ← below 8 with
    | 0 | 1 => return .insert (List.replicate (← below 8) '\n')
    | 2 => return .undo
    | 3 => return .redo
    | 4 => return .delete
    | 5 => return .deleteRange ⟨← below 6, 0⟩ ⟨← below 8, 0⟩
    | _ => return .setCursor ⟨n - (← below 3), 0⟩
  return (some (List.replicate n '\n'), cs)

/-- The cursor at the end of a line, contents that may lack the line or the column, and movements up and down. -/
def columnCalls : Gen (Option Text × List Buf.Cmd) := do
  let t ← text
  let c : Buf.Cmd ← pick .delete [.replace (← text), .replace ['b', '\n', 'a'], .replace ['b', '\n', '\n'], .reload ['\n', 'b'], .replace [], .undo, .delete]
  return (some t, [.move (.to (← placeOf t)), .move .endOfLine, c] ++ (← upTo 3 (return .move (← pick .firstLine [.firstLine, .lastLine, ← direction]))))

def machineReport : List (String × Bool) := [
  check "C59_buffer" 400 <| inWord do
    let (c, cs) ← columnCalls
    return o_C59_buffer S A 0 c cs,
  check "C58_gap_buffer" 300 <| inWord <| do let t ← text; return o_C58_gap_buffer S A 0 t (← upTo 4 (hugeGapCall t)),
  check "C59_buffer" 400 <| inWord do
    let (c, cs) ← calls false
    return o_C59_buffer S A 0 c (cs ++ (← upTo 2 (hugeCmd (c.getD [])))),
  check "C58_refused" 300 <| inWord <| do
    let t ← text
    return o_C58_refused S (if ← coin then A else Demo.tight) (if ← coin then .checked else .wrapping) 0 t (← upTo 4 (hugeGapCall t)),
  check "C59_refused" 300 <| inWord do
    let (c, cs) ← calls false
    return o_C59_refused S (if ← coin then A else Demo.tight) (if ← coin then .checked else .wrapping) 0 c cs,
  check "C59_refused" 300 <| inWord do
    let (c, cs) ← lineCalls
    return o_C59_refused S Demo.tight (if ← coin then .checked else .wrapping) 0 c cs,
  check "C59_line_count" 100 <| inWord do
    let (c, cs) ← calls false
    return o_C59_line_count S A (if ← coin then .checked else .wrapping) 0 c cs,
  check "C59_buffer" 300 <| inWord do
    let (c, cs) ← lineCalls
    return o_C59_buffer S Demo.tight 0 c cs,
  check "C59_line_count" 100 <| inWord do
    let (c, cs) ← lineCalls
    return o_C59_line_count S Demo.tight (if ← coin then .checked else .wrapping) 0 c cs,
  check "C60_last_line_number" 200 (withGap fun g t => inWord <| do return o_C60_last_line_number S g t (← placeOf t) (← huge)),
  check "C61_positions" 300 <| inWord <| do return o_C61_positions (← hugePosition) ⟨← huge, ← huge⟩ ⟨← huge, ← huge⟩,
  check "C61_inverted" 100 <| inWord <| do return o_C61_inverted ⟨← huge, ← huge⟩,
  check "C72_lines" 200 <| inWord <| do return o_C72_lines (if ← coin then .checked else .wrapping) (← text) (← below 8),
  check "C72_tokens" 500 <| inWord <| do return o_C72_tokens S (if ← coin then .checked else .wrapping) (wild (← eventLists) (← coin) (← below 12)) (← text) (← below 30),
  check "C73_ids_collide" 30 do
    let root ← pick [.root] [[.root], [.root, .normal [97]]]
    return @o_C73_ids_collide A ⟨2 + (← below 3), by omega⟩ syntaxes root (← simpleBuf),
  check "C73_workspace" 300 (withCalls 0 fun r cs => inWord <| do return o_C73_workspace A (if ← coin then .checked else .wrapping) syntaxes r cs),
  check "C73_results" 300 (withCalls 0 fun r cs => inWord <| do
    return o_C73_results A (if ← coin then .checked else .wrapping) syntaxes r cs.dropLast (cs.getLast?.getD .next)),
  check "C73_results" 100 (inWord <| do
    let p ← path
    let q ← path
    let again := Workspace.Call.openPath 0 (← openFs) (← openFs) (← openFs)
    return o_C73_results A (if ← coin then .checked else .wrapping) syntaxes [.root] (if ← coin then [again p] else [again p, again q]) (again p))]

/-! ## Programs -/

def action : Gen (Act Nat) := do
  match ← below 16 with
  | 0 | 1 =>
    let (c, cs) ← calls false
    return .add (← below 3) c (cs.take 3) (← maybe 2 (below 3)) (← maybe 4 path) (← maybe 2 (below 3))
  | 2 => return .openPath 0 (← fs) (← openFs) (← openFs) (← path)
  | 3 => return .openPath 0 (← openFs) (← openFs) (← openFs) (← path)
  | 4 => if ← coin then return .close else return .next
  | 5 => return .next
  | 6 => return .previous
  | 7 => return .updateSyntax
  | 8 => if ← coin then return .setPath (← maybe 4 path) else return .setSyntax (← maybe 2 (below 3))
  | _ => return .cmd (← cmd ['a', '\n', 'b'])

/-- A call, or an assignment to a field. -/
def wsStep : Gen (Workspace.Step Nat) := do
  match ← below 8 with
  | 0 => return .put none
  | 1 => if (← below 4) == 0 then return .put (some (← simpleBuf)) else return .put none
  | 2 => return .setPath (← path)
  | 3 => return .setSyntaxes (← pick syntaxes [syntaxes, ⟨fun _ => none, 3⟩])
  | _ => return .call (← wsCall 0)

def programReport : List (String × Bool) := [
  check "C74_program" 500 do
    let root ← pick [.root] [[.root], [.root, .normal [97]], [.root, .normal [98]]]
    return o_C74_program S A syntaxes root (← upTo 14 action) (← upTo 3 position),
  check "C75_never_read" 300 do let t ← text; return o_C75_never_read S A (← below 3) t (← upTo 6 (gapCall t)),
  check "C75_stale" 300 do let t ← text; return o_C75_stale S 0 (UInt8.ofNat (← below 256)) (← below 4) (← below 3) t (← upTo 6 (gapCall t)),
  check "C76_fields" 500 do
    let root ← pick [.root] [[.root], [.root, .normal [97]], [.root, .normal [98]]]
    return o_C76_fields A syntaxes root (← upTo 12 wsStep)]

/-! ## Editors -/

/-- `/a`, `/b` and its link `/c`, `/d`. -/
def fileTree : FileTree where
  slot p := if p = [.root, .normal [97]] then some 0 else if p = [.root, .normal [98]] ∨ p = [.root, .normal [99]] then some 1
    else if p = [.root, .normal [100]] then some 2 else none
  real p := if p = [.root, .normal [99]] then [.root, .normal [98]] else p
  leads p n h := by
    split
    · rename_i hp; subst hp; revert h; simp
    · exact h
  idem p n _ := by
    by_cases hp : p = [.root, .normal [99]]
    · rw [if_pos hp]; rfl
    · rw [if_neg hp, if_neg hp]

example : NoHardLinks fileTree := by
  intro p q n hp hq
  simp only [fileTree] at *
  grind

/-- `/a`, `/b`, `/d` are hard links; `/c` is a symbolic link to `/b`. -/
def linkTree : FileTree where
  slot p := if p = [.root, .normal [97]] ∨ p = [.root, .normal [98]] ∨ p = [.root, .normal [99]] ∨ p = [.root, .normal [100]] then some 0
    else if p = [.root, .normal [101]] then some 1 else none
  real p := if p = [.root, .normal [99]] then [.root, .normal [98]] else p
  leads p n h := by
    split
    · rename_i hp; subst hp; revert h; simp
    · exact h
  idem p n _ := by
    by_cases hp : p = [.root, .normal [99]]
    · rw [if_pos hp]; rfl
    · rw [if_neg hp, if_neg hp]

def treePath : Gen Path := return [.root, .normal [← pick 97 [97, 98, 99, 100, 101]]]

def deed : Gen (Deed Nat) := do
  match ← below 24 with
  | 0 => return .fresh 0
  | 22 => return .updateSyntax
  | 23 => return .setSyntax (← maybe 2 (below 3))
  | 1 | 2 | 3 | 4 => return .openPath 0 ((← below 6) != 0) (← treePath)
  | 5 => if ← coin then return .close else return .next
  | 6 => return .next
  | 7 => return .previous
  | 8 => if ← coin then return .updateSyntax else return .setSyntax (← maybe 2 (below 3))
  | 9 | 10 | 11 => return .save (← saveEnv)
  | 12 => return .saveAs (← treePath) (← saveEnv)
  | 13 => return .reload ((← below 3) != 0)
  | _ => return .cmd (← cmd ['a', '\n', 'b'])

/-- A careful program. -/
def deeds (disk : Disk) (root : Path) : Gen (List (Deed Nat)) := do
  let as ← upTo 24 deed
  let as := if ← coin then as ++ [.cmd (.insert ['x']), .save ⟨some none, []⟩] else as
  return match Workspace.new (fsOf none (some root)) root (some syntaxes) with
    | some w0 => keepCareful S A fileTree ⟨w0, disk⟩ as
    | none => []

def editorReport : List (String × Bool) := [
  check "C79_on_disk" 400 do let d ← disk; return o_C79_on_disk S A fileTree syntaxes [.root] d (← deeds d [.root]),
  check "C79_one_buffer" 200 do let d ← disk; return o_C79_one_buffer S A fileTree syntaxes [.root] d (← deeds d [.root]),
  check "C79_reopen" 200 do let d ← disk; return o_C79_reopen S A fileTree syntaxes [.root] d (← deeds d [.root]) (← below 3),
  check "C79_failed_save" 100 do let d ← disk; return o_C79_failed_save S A fileTree syntaxes [.root] d (← deeds d [.root]),
  check "C79_hard_links" 60 do return o_C79_hard_links S A linkTree syntaxes [.root] (← disk) (← treePath) (← treePath) (← piece) (← below 3) (← below 3),
  check "C87_program" 400 do
    let t ← text
    return o_C87_program S A (if ← coin then fileTree else linkTree) syntaxes [.root] (← disk) (← upTo 16 deed) (← upTo 3 (placeOf t)) 4,
  check "C87_only_saves" 200 do return o_C87_only_saves S A (if ← coin then fileTree else linkTree) syntaxes [.root] (← disk) (← upTo 12 deed) (← deed) 4,
  check "C87_files" 200 do return o_C87_files S A (if ← coin then fileTree else linkTree) syntaxes [.root] (← disk) (← upTo 16 deed) (← below 3)]

/-! ## Shared gap buffers -/
open Shared

/-- A callback that inserts a text into every gap buffer and writes it down. -/
def meddler (s : Text) (q : Position) : Callback Diary := fun p w => do
  let cells ← w.cells.mapM fun c => do return { c with value := (← c.value.insert S A s q) }
  return { w with cells := cells, ext := w.ext ++ [(p, cells)] }

/-- A world with some other gap buffers and a buffer after some calls, by pointer and by value. -/
def owned : Gen (Option (World Diary × Shared.Buf Diary × Scribe.Buf)) := do
  let gs ← upTo 2 (do gapOf (← text))
  let c ← content
  let cs ← cmdsFrom (← coin) (← below 8) (startOf A c).2.1
  let cs := if ← coin then .setCallback true :: cs else cs
  let w : World Diary := ⟨gs.map .free, []⟩
  let (b, w) := match c with | some t => Shared.Buf.fromContent A w 0 t | none => Shared.Buf.new A w 0
  match Scribe.Buf.execAll S A (startOf A c).1 cs, Shared.Buf.execAll S A diary w b cs with
  | .ok a, .ok (b, w) => return some (w, b, a)
  | _, _ => return none

@[inline] def withOwned (f : World Diary → Shared.Buf Diary → Scribe.Buf → Gen Bool) : Gen Bool := do
  match ← owned with
  | some (w, b, a) => f w b a
  | none => pure true

/-- Some guards are alive. -/
def guarded (w : World Diary) : Gen (World Diary) := do
  let cells ← w.cells.mapM fun c => do
    match ← below 3 with
    | 0 => return { c with readers := 1 + (← below 2) }
    | 1 => return { c with writing := true }
    | _ => return c
  return { w with cells := cells }

/-- An argument, often one that says the contents. -/
def argument (t : Text) : Gen (Arg Diary) := do
  let said ← if ← coin then pure t else text
  return .edits S A (← if ← coin then pure [] else piece) (← if ← coin then pure [] else piece) said (← if ← coin then pure said else text)

/-- Calls, some of them with such arguments. -/
def argCalls (t : Text) (cs : List Scribe.Buf.Cmd) : Gen (List (Shared.Buf.ArgCmd Diary)) :=
  cs.mapM fun c => do
    match ← below 4 with
    | 0 => return .insert (← argument t)
    | 1 => return .replace (← argument t)
    | _ => return .cmd c

/-- A program with clones and drops. -/
def heapSteps (simple : Bool) : Nat → Gen (List Heap.Step)
  | 0 => return []
  | n + 1 => do
    let i ← below 3
    let j ← below 3
    let t ← text
    let c ← match ← cmdsFrom false 2 (Doc.new t true) with
      | [_, c] | [c] => pure c
      | _ => pure .undo
    let rest ← heapSteps simple n
    let shared := [Heap.Step.cloneCursor i, .copyCursor j, .assign i j, .moveCursor j .endOfLine, .dropCursor j, .cloneRef j, .newRef 0 t, .cursorOf j (← placeOf t),
      .edit j (.insert (← piece) (← placeOf t)), .dropRef j, .callback i j, .callback i 1, .call i (.setCallback (← coin)), .call i (.setCallback false)]
    let plain := [Heap.Step.call i c, .fromFile 0 t (← coin), .call i .undo, .call i (.replace t), .call i (.move .right), .new 0, .dropBuffer i, .call i (.insert t), .call i .redo]
    return (← pick (.new 0) (if simple then plain else plain ++ shared ++ [.fromFile 0 t true, .cloneCursor i, .cloneCursor i])) :: rest

def sharedReport : List (String × Bool) := [
  check "C106_counts" 400 (do return o_C106_counts S A (.fromFile 0 (← text) true :: (← heapSteps false (← below 25)))),
  check "C106_no_leak" 300 (do return o_C106_no_leak S A ([.fromFile 0 (← text) true, .newRef 0 (← text), .callback 0 1] ++ (← heapSteps false (← below 25)))),
  check "C106_one_each" 400 (do return o_C106_one_each S A (.fromFile 0 (← text) true :: (← heapSteps true (← below 25)))),
  check "C106_same" 600 do
    let t ← text
    let cs ← cmdsFrom false 3 (Doc.new t true)
    if (← below 3) != 0 then
      let cs ← cmdsFrom false (← below 12) (Doc.new t true)
      let group := [Buf.Cmd.startGroup, .insert (← piece), .move .endOfLine, .insert (← piece), .deleteRange (← placeOf t) (← placeOf t), .endGroup]
      let before := if ← coin then group else group ++ [.undo]
      return o_C106_same S A (.fromFile 0 t true :: (before ++ cs).map (.call 0)) 0 (← pick .undo [.undo, .redo, .endGroup, .undo, .redo, ← cmd t])
    if ← coin then
      return o_C106_same S A ([.fromFile 0 t true, .call 0 (.move .lastLine), .call 0 (.move .endOfLine)]) 0 (← pick .undo [.replace (← text), .reload (← text)])
    return o_C106_same S A (.fromFile 0 t true :: (← heapSteps false (← below 15))) (← below 2) (← pick .undo (.setCallback true :: .replace t :: cs)),
  check "C106_replace" 400 (do return o_C106_replace S A (.fromFile 0 (← text) true :: .cloneCursor 0 :: (← heapSteps false (← below 15))) (← below 2) (← text)),
  check "C106_made" 400 (do let t ← text; let c ← coin; return o_C106_made S A (← heapSteps false (← below 15)) (← pick (Heap.Step.new 0) [.new 0, .fromFile 0 t c])),
  check "C106_edit" 300 do
    let t ← text
    let c := GapBuffer.Call.insert (← piece) (← placeOf t)
    return o_C106_edit S A ([.fromFile 0 t true, .cloneCursor 0, .cloneRef 0, .newRef 0 (← text)] ++ (← heapSteps false (← below 8))) (← below 2) c,
  check "C106_moved" 300 do
    let t ← text
    let m ← pick Cursor.Move.right [.right, .endOfLine, .lastLine, .to (← placeOf t)]
    return o_C106_moved S A ([.fromFile 0 t true, .cloneCursor 0, .cloneCursor 0] ++ (← heapSteps false (← below 8))) (← below 2) m,
  check "C105_ledger" 400 (do let t ← text; return o_C105_ledger S A 0 (if ← coin then some t else none) (← cmdsFrom false (← below 12) (Doc.new t true))),
  check "C105_still" 400 do
    let t ← text
    let cs ← cmdsFrom false (← below 10) (Doc.new t true)
    return o_C105_still S A 0 t cs (← pick Buf.Cmd.undo [.undo, .redo, .endGroup, .startGroup, .saved, .move .left, .setCallback true]),
  check "C105_without_undo" 400 (do let t ← text; return o_C105_without_undo S A 0 t ((← cmdsFrom false (← below 12) (Doc.new t true)).filter (· ≠ .undo))),
  check "C105_reload" 300 (do let t ← text; return o_C105_reload S A 0 t (← text) ((← cmdsFrom false (← below 12) (Doc.new t true)).filter (· ≠ .undo))),
  check "C105_deleted" 300 (do let t ← text; return o_C105_deleted S A 0 t (← placeOf t) (← placeOf t)),
  check "C104_strings" 300 (do let t ← text; return o_C104_strings S A 0 t (← placeOf t) (← if ← coin then pure t else piece)),
  check "C104_no_panic" 200 do
    let t ← text
    let cs ← cmdsFrom false (← below 8) (Doc.new t true)
    let m := meddler (← piece) (← placeOf t)
    return o_C104_no_panic S A (if ← coin then diary else m) 0 t (.cmd (.setCallback true) :: (← argCalls t cs)),
  check "C104_insert" 300 (do let t ← text; return o_C104_insert S A 0 t (← placeOf t) (← piece) (← piece)),
  check "C104_replace" 400 do
    let t ← text
    let said ← if ← coin then pure t else text
    return o_C104_replace S A 0 t (← placeOf t) (← if ← coin then pure [] else piece) (← if ← coin then pure [] else piece) said (← if ← coin then pure t else text),
  check "C62_no_panic" 200 do
    let t ← text
    let cs ← cmdsFrom false (← below 8) (Doc.new t true)
    let m := meddler (← piece) (← placeOf t)
    return o_C62_no_panic S A (if ← coin then diary else m) 0 t (.setCallback true :: cs),
  check "C66_not_undone" 300 (return o_C66_not_undone S A Demo.table 0 (← text) (← piece) (← piece)),
  check "C62_guards" 300 (withOwned fun w b a => return o_C62_guards S A (← guarded w) b (← piece) a.cursor.position (← position)),
  check "C62_readers_allowed" 300 (withOwned fun w b a => return o_C62_readers_allowed S (← guarded w) b a.cursor.position (← position) (← movement [])),
  check "C63_by_value" 300 do
    let gs ← upTo 2 (do gapOf (← text))
    let (c, cs) ← calls false
    return o_C63_by_value S A gs 0 c (if ← coin then .setCallback true :: cs else cs),
  check "C63_by_value" 300 do
    let (c, cs) ← columnCalls
    return o_C63_by_value S A [] 0 c cs,
  check "C63_by_value (columns)" 300 do
    let t ← text
    let more : List Buf.Cmd := [.deleteRange (← placeOf t) (← placeOf t), .delete, .undo, .replace ['b'], .replace []]
    let more ← upTo 2 (pick .delete more)
    return o_C63_by_value S A [] 0 (some t) ([.move (.to (← placeOf t)), .move .endOfLine] ++ more ++ [.move (← direction), .move (← direction)]),
  check "C63_callback_sees" 400 (withOwned fun w b a => return o_C63_callback_sees S A w b a (← cmd ((a.data.toStr.toOption).getD []))),
  check "C64_independent" 300 do
    let ms ← upTo 10 (do
      match ← below 4 with
      | 0 => return Many.load 0 (← text)
      | _ => return Many.at (← below 3) (← cmd ['a', '\n', 'b']))
    return o_C64_independent S A ms (← below 3) (← below 3),
  check "C65_clone_follows" 300 (withOwned fun w b a => return o_C65_clone_follows S A w b a (← inGroup (Doc.new ((a.data.toStr.toOption).getD []) true) 3) (← movement ['a', '\n', 'b'])),
  check "C65_clone_goes_stale" 300 (withOwned fun w b a => return o_C65_clone_goes_stale S A w b a (← text) (← upTo 3 (cmd ['a', '\n', 'b'])) (← movement ['a', '\n', 'b']))]

/-- One step of a program that uses public fields. -/
def anAct : Gen (Shared.Act Diary) := do
  match ← below 8 with
  | 0 => return .load 0 (← text)
  | 1 => return .gap 0 (← text)
  | 2 => return .assign (← below 2) ⟨← below 3, ⟨← position, ← below 4⟩⟩
  | 3 => return .insert (← below 3) (← piece) (← position)
  | 4 => return .delete (← below 3) (← position) (← position)
  | _ => return .call (← below 2) diary (← cmd ['a', '\n', 'b'])

/-- A program with at least two buffers. -/
def program : Gen (List (Shared.Act Diary)) := do
  return .load 0 (← text) :: .load 0 (← text) :: (← upTo 8 anAct)

/-- Any state such a program reaches. -/
def withProgram (f : World Diary → List (Shared.Buf Diary) → Shared.Buf Diary → Gen Bool) : Gen Bool := do
  match acts S A ⟨[], []⟩ [] (← program) with
  | .ok (bs, w) =>
    match bs[0]? with
    | some b => f w bs b
    | none => return true
  | .error _ => return false

/-- A buffer whose cursor belongs to another one, after some edits. -/
def withForeign (f : World Diary → Shared.Buf Diary → Gen Bool) : Gen Bool := do
  let xs := [Shared.Act.load 0 (← text), .load 0 (← text), .call 0 diary (← cmd ['a', '\n', 'b']), .call 0 diary (← cmd ['a', '\n', 'b']),
    .assign 0 ⟨1, ⟨← position, ← below 4⟩⟩]
  match acts S A ⟨[], []⟩ [] xs with
  | .ok (bs, w) =>
    match bs[0]? with
    | some b => f w b
    | none => return true
  | .error _ => return false

def directReport : List (String × Bool) := [
  check "C84_no_panic" 300 do return o_C84_no_panic S A (← program) (← below 2) (← movement ['a', '\n', 'b']),
  check "C84_edits_own_text" 400 (withProgram fun w _ b => return o_C84_edits_own_text S A w b (← cmd ['a', '\n', 'b']) (← below 3)),
  check "C84_edits_own_text" 400 (withForeign fun w b => do
    return o_C84_edits_own_text S A w b (← pick .undo [.undo, .undo, .undo, .replace ['a', '\n', 'b'], .delete, .reload ['x'], .redo]) (← below 3)),
  check "C84_no_panic" 200 do
    let xs ← program
    return o_C84_no_panic S A (xs ++ [.assign 0 ⟨1, ⟨← position, 0⟩⟩]) 0 (← movement ['a', '\n', 'b']),
  check "C84_moves_cursor_text" 300 (withProgram fun w _ b => return o_C84_moves_cursor_text S A w b (← movement ['a', '\n', 'b'])),
  check "C84_replace_reattaches" 200 (withProgram fun w _ b => return o_C84_replace_reattaches S A w b (← text)),
  check "C84_history_spared" 300 (withProgram fun w bs _ => do
    let xs ← upTo 5 anAct
    return o_C84_history_spared S A w bs (xs.filter (sparesB 0)) 0),
  check "C84_bookkeeping" 300 do return o_C84_bookkeeping S A (← program) 0 (← cmd ['a', '\n', 'b'])]

/-! ## Errors -/

def ioErr : Gen IoErr := pick .notFound [.notFound, .invalidData, .os 13, .os 28]

def withErr (f : Fs) : Gen FsE := do
  let e ← ioErr
  let e' ← ioErr
  return ⟨fun p => match f.read p with | some x => .ok x | none => .error e, fun p => match f.canon p with | some x => .ok x | none => .error e'⟩

/-- A path that a buffer of the workspace can have may lead nowhere. -/
def fsE : Gen FsE := do
  match ← below 4 with
  | 0 => withErr (← openFs)
  | 1 =>
    let f ← withErr (← openFs)
    let e ← ioErr
    return { f with canon := fun _ => .error e }
  | 2 =>
    let f ← withErr (← openFs)
    let b ← bytes
    return { f with read := fun _ => .ok b }
  | _ => withErr (← fs)

def saveEnvE : Gen SaveEnvE := do
  let env ← saveEnv
  let env := if ← coin then env else ⟨env.create, env.writes.zipIdx.map fun w => if w.2 % 3 = 0 then w.1 else .failed⟩
  let e ← ioErr
  let e' ← ioErr
  return ⟨env.create.map fun c => match c with | some f => .ok f | none => .error e,
    env.writes.zipIdx.map fun w => match w.1 with | .wrote n => .wrote n | .interrupted => .interrupted | .failed => if w.2 % 2 = 0 then .failed e else .failed e'⟩

def errorReport : List (String × Bool) := [
  check "C82_same" 200 (withFile fun b => do
    let w : Workspace Nat := ⟨[.root], [], 0, none, none, syntaxes⟩
    match w.addBuffer A b with
    | .ok w => return o_C82_same S A b (← saveEnvE) (← disk) (← fsE) (← fsE) (← fsE) (← path) w (if ← coin then some syntaxes else none) (← below 3)
    | .error _ => return false),
  check "C82_reload" 300 (withFile fun b => return o_C82_reload S A b (← fsE)),
  check "C82_open" 300 (withCalls 0 fun r cs => return o_C82_open A syntaxes r cs (← fsE) (← fsE) (← fsE) (← path)),
  check "C82_save" 300 (withFile fun b => return o_C82_save b (← saveEnvE) (← disk)),
  check "C82_save_error" 500 (withFile fun b => return o_C82_save_error b (← saveEnvE) (← disk) (← below 3)),
  check "C82_new" 100 (return o_C82_new (← fsE) (← path) (if ← coin then some syntaxes else none)),
  check "C83_current" 300 do
    let root ← pick [.root] [[.root], [.root, .normal [97]], [.root, .normal [98]]]
    let evs ← eventLists
    let st ← coin
    let bad ← below 12
    let first : Act Nat := .openPath 0 (← openFs) (← openFs) (← openFs) (← path)
    let as ← upTo 10 action
    return o_C83_current S A (fun y => highlighter evs st (bad + y)) (fun y e => let e : Nat := e; e == bad + y || (st && e == 0)) syntaxes root
      (if ← coin then as else first :: as),
  check "C83_jump" 400 (return o_C83_jump S A (highlighter (← eventLists) (← coin) (← below 12)) (← text) 60 (← below 8) ⟨⟨0, 0⟩, 0⟩)]

def turnOf (t : Text) : Gen Turn := do
  match ← below 6 with
  | 0 | 1 => return .compute (← below 5)
  | 2 => return .forget (← below 3)
  | _ =>
    match ← cmd t with
    | .setCallback _ => return .compute 1
    | c => return .call c

/-- The longest beginning whose calls are clean. -/
def keepClean (d : Doc) : List Turn → List Turn
  | [] => []
  | .call c :: as => if CleanCmd S.segs d c then .call c :: keepClean (d.step S.segs c) as else keepClean d as
  | a :: as => a :: keepClean d as

def cacheReport : List (String × Bool) := [
  check "C91_cache" 600 (withBuf fun b d => do
    let b := { b with callback := true }
    let d := { d with callback := true }
    let as ← upTo 10 (turnOf d.text)
    return o_C91_cache S A b d (.compute 0 :: .compute 1 :: .compute 2 :: keepClean d as)),
  check "C116_resume" 400 (return o_C116_resume S (highlighter (← eventLists) (← coin) ((← below 12) + 1)) (← text) (← text) (← text)),
  check "C116_resume_still" 300 (return o_C116_resume S (still (← eventLists) (← coin) (← below 40)) (← text) (← text) (← text)),
  check "C116_patch" 600 (return o_C116_patch S (still (← eventLists) false ((← below 40) + 2)) (← text) (← text) (← text)),
  check "C116_states" 400 (return o_C116_states (highlighter (← eventLists) (← coin) (← below 12)) (← text) (← text)),
  check "C91_tokens" 400 (return o_C91_tokens S (highlighter (← eventLists) (← coin) (← below 12)) (← text) (← text) (← text) 80)]

/-- The longest beginning of fitting calls. -/
def keepFit (s : LineEditor) : List Buf.Cmd → List Buf.Cmd
  | [] => []
  | c :: cs => if fitB S Demo.table s c then c :: keepFit (s.step S.segs c) cs else keepFit s cs

def plainChunk : Gen Text := pick ['a'] [['a'], ['é'], ['日'], ['\n'], ['e', '́'], ['b'], ['\n']]
def plainText (n : Nat) : Gen Text := return (← upTo n plainChunk).flatten

def sheetCmd (t : Text) : Gen Buf.Cmd := do
  match ← cmd t with
  | .insert _ => return .insert (← plainText 4)
  | .replace _ => return .replace (← plainText 4)
  | .reload _ => return .reload (← plainText 4)
  | c => return c

def rowEdit (t : Text) : Gen RowEdit := do
  let p ← placeOf t
  let x ← plainText 3
  return ⟨p.line, p.offset, ← below 2, x.filter (· != '\n')⟩

/-- The edits that are allowed where they come. -/
def keepAllowed (L : Page) : List RowEdit → List RowEdit
  | [] => []
  | e :: es =>
    match L[e.line]? with
    | some r => if e.start + e.len ≤ r.length then e :: keepAllowed (L.set e.line (RowEdit.on S.segs r e)) es else keepAllowed L es
    | none => keepAllowed L es

def nlCount (t : Text) : Nat := t.count '\n'

def blockPrefix : Gen Text := pick ['#'] [[], ['#'], [' ', ' '], ['é'], ['日', ' ']]

/-- A buffer of plain text, after some calls, and its text. -/
def blockCase (f : Buf → Text → Gen Bool) : Gen Bool := do
  let t ← plainText 7
  match session S A (some t) (← upTo 2 (pick .undo [.move .down, .move .lastLine, .insert ['x'], .delete, .startGroup])) with
  | some (b, d) => f b d.text
  | none => return true

def sheetReport : List (String × Bool) := [
  check "C92_lines" 800 do
    let t ← plainText 7
    let content := if ← coin then some t else none
    let cs ← upTo 8 (sheetCmd t)
    let cs := if ← coin then .insert t :: cs else cs
    return o_C92_lines S A Demo.table content (keepFit (LineEditor.new (rows (S.segs (content.getD []))) content.isSome) cs) (← placeOf t) (← placeOf t),
  check "C93" 400 do
    let t ← plainText 7
    match session S A (some t) (← upTo 2 (pick .undo [.move .down, .move .lastLine, .insert ['x'], .delete])) with
    | some (b, d) => return o_C93 S A Demo.table b (keepAllowed (rows (S.segs d.text)) (← upTo 6 (rowEdit d.text)))
    | none => return true,
  check "C113_indent" 400 (blockCase fun b t => do
    return o_C113_indent S A Demo.table b (← blockPrefix) ((← below (nlCount t + 1)) :: (← upTo 4 (below (nlCount t + 1))))),
  check "C113_outdent" 400 (blockCase fun b t => do
    let n ← below 3
    let ls := (← below (nlCount t + 1)) :: (← upTo 3 (below (nlCount t + 1)))
    let fits := ls.filter fun l => n ≤ (S.segs ((splitNl t)[l]?.getD [])).length
    return o_C113_outdent S A Demo.table b n (if ← coin then ls else fits.eraseDups)),
  check "C115_replace" 400 (blockCase fun b t => do
    let i ← below (nlCount t + 1)
    return o_C115_replace S A Demo.table b i (i + (← below 3)) (← plainText 4)),
  check "C115_rearrange" 400 (blockCase fun b t => do
    let i ← below (nlCount t + 1)
    return o_C115_rearrange S A Demo.table b i (i + (← below 3)) (← upTo 4 (pick [] (splitNl t)))),
  check "C113_short" 400 (blockCase fun b t => do
    return o_C113_short S A b (← below (nlCount t + 1)) ((← below 4) + 2)),
  check "C113_back" 300 (blockCase fun b t => do
    return o_C113_back S A Demo.table b (← blockPrefix) (← upTo 4 (below (nlCount t + 1))))]

/-- Two positions, the smaller first. -/
def inOrder (t : Text) : Gen (Position × Position) := do
  let p ← placeOf t
  let q ← placeOf t
  return (lo p q, hi p q)

def markReport : List (String × Bool) := [
  check "C95_join" 300 (withBuf fun b d => do
    let (p, q) ← inOrder d.text
    let (r, _) ← inOrder d.text
    return o_C95_join S b (lo p r) (lo (hi p r) q) (hi r q)),
  check "C95_insert" 500 (withBuf fun b d => do
    let (p, q) ← inOrder d.text
    return o_C95_insert S A b d (← piece) p q),
  check "C95_delete" 500 (withBuf fun b d => do
    let (p, q) ← inOrder d.text
    let (r, r') ← inOrder d.text
    return o_C95_delete S A b d p q r r'),
  check "C95_session" 500 (withBuf fun b d => do
    let n ← below d.text.length
    let cs ← cmdsFrom true 5 d
    let cs := cs.filter fun c => match c with | .undo | .redo | .replace _ | .reload _ => false | _ => true
    let c := (S.segs d.text)[n]?.getD ['a']
    return o_C95_session S A b d (if decide (CleanCmds S.segs d cs) then cs else cs.take 1) (endPos ((S.segs d.text).take n)) c)]

/-! ## Edits made at the same time -/

def change (t : Text) : Gen Delta := do
  let (p, q) ← inOrder t
  let s ← ordinaryText
  return if ← coin then .put p s else .cut p q

def changesFrom : Nat → Text → Gen (List Delta)
  | 0, _ => pure []
  | n + 1, t => do
    let e ← change t
    return e :: (← changesFrom n (e.on S.segs t))

def concurrentReport : List (String × Bool) := [
  check "C96_two" 500 (withOrdinary fun b d => do
    let b' := Buf.fromContent A 0 d.text
    return o_C96_two S A Demo.table b b' (← change d.text) (← change d.text)),
  check "C96_many" 300 (withOrdinary fun b d => do
    let b' := Buf.fromContent A 0 d.text
    return o_C96_many S A Demo.table b b' (← changesFrom (← below 4) d.text) (← changesFrom (← below 4) d.text))]

/-! ## Several programs -/

/-- As `fileTree`, with `/a` and `/b` exchanged. -/
def otherTree : FileTree where
  slot p := if p = [.root, .normal [98]] then some 0 else if p = [.root, .normal [97]] then some 1 else none
  real p := p
  leads _ _ h := h
  idem _ _ _ := rfl

def event : Gen (Event Nat) := do
  match ← below 12 with
  | 0 => return .outside (← disk)
  | 1 => return .deed (← below 2) otherTree (← deed)
  | 2 => return .deed (← below 2) linkTree (← deed)
  | _ => return .deed (← below 2) fileTree (← deed)

def officeReport : List (String × Bool) := [
  check "C97_programs" 300 do
    let t ← text
    return o_C97_programs S A syntaxes [.root] (← disk) (← upTo 20 event) (← upTo 3 (placeOf t)) 4 2,
  check "C97_unnoticed" 300 do
    let es ← upTo 12 event
    let blind (ev : Event Nat) : Bool := match ev with | .deed 0 _ a => !peeksB a | _ => true
    return o_C97_unnoticed S A syntaxes [.root] (← disk) (← upTo 8 event) (es.filter blind) 0,
  check "C97_files" 200 do return o_C97_files S A syntaxes [.root] (← disk) (← upTo 16 event) (← below 3),
  check "C97_overwrites" 300 do
    let es := [.deed 0 fileTree (.openPath 0 true (← treePath)), .deed 0 fileTree (.cmd (← cmd ['a', '\n', 'b']))] ++ (← upTo 8 event)
    return o_C97_overwrites S A fileTree syntaxes [.root] (← disk) es 0 (← below 3) ⟨some (some 0), List.replicate 40 (.wrote 3)⟩]

def ask (t : Text) : Gen Ask := do
  match ← below 15 with
  | 0 => return .data
  | 1 | 2 => return .read (← placeOf t) (← placeOf t)
  | 3 | 4 => return .search (← pick [] [['a'], ['b'], ['a', 'b'], [], ['a', 'a']])
  | 5 => return .lineCount
  | 6 => return .modified
  | 7 => return .cursor
  | 8 => return .inBounds (← placeOf t)
  | 9 => return .index
  | 10 => return .currentPath
  | 11 => return .paths
  | 12 => return .tokens
  | 13 => if ← coin then return .id else return .path
  | _ => if ← coin then return .name else return .extension

def line (c : Gen Buf.Cmd) : Gen (Line Nat) := do
  match ← below 5 with
  | 0 | 1 => return .ask (← ask ['a', '\n', 'b'])
  | 2 => return .deed (.cmd (← c))
  | 3 => return .deed (.cmd (.move (.to (← placeOf ['a', '\n', 'b']))))
  | _ => return .deed (← deed)

def dialogueReport : List (String × Bool) := [
  check "C98_dialogue" 400 do
    return o_C98_dialogue S A (if ← coin then fileTree else linkTree) syntaxes [.root] (← disk) (← upTo 24 (line (cmd ['a', '\n', 'b']))) 4,
  check "C98_same_plain" 300 do
    let t := upTo 5 (pick 'a' ['a', 'b', '\n', 'é'])
    let ls ← upTo 24 (line (ordinaryCmd ['a', '\n', 'b']))
    return o_C98_same_plain S A (if ← coin then fileTree else linkTree) Demo.table Demo.tight syntaxes [.root] [← t, ← t, ← t] (ls.filter (aloneLineB Demo.table)) 4]

def tick : Gen Tick := do
  match ← below 8 with
  | 0 | 1 => return .create (← below 3) (← pick none [none, some 0, some 1, some 0, some 0])
  | 2 => return .write (← below 3) (← write)
  | _ => return .write (← below 3) (.wrote (1 + (← below 4)))

def overlapReport : List (String × Bool) := [
  check "C99_exact" 400 (withFile fun b0 => withFile fun b1 => withFile fun b2 => do
    let p : Option Path := some [.root, .normal [97]]
    let named (b : FileBuf Nat) : Gen (FileBuf Nat) := do if (← below 6) == 0 then return b else return { b with path := p }
    return o_C99_exact b0 [← named b0, ← named b1, ← named b2] (← disk) ([.create 0 (some 0), .create 1 (some 0)] ++ (← upTo 20 tick)) 3 3),
  check "C99_alone" 200 (withFile fun b => do
    let env ← saveEnv
    return o_C99_alone b (← disk) (← below 2) (env.create.getD (some 0)) env.writes 3)]

/-! ## Files with CRLF line ends -/

def windowsChunk : Gen Text := pick ['a'] [['a'], ['é'], ['\n'], ['\r', '\n'], ['🇦', '🇧'], ['\r', '\n'], ['b']]
def windowsText : Gen Text := return (← upTo 6 windowsChunk).flatten
def noCrlfText : Gen Text := return (← upTo 3 (pick ['a'] [['a'], ['é'], ['\n'], ['e', '́'], ['b']])).flatten

def windowsCmd (t : Text) : Gen Buf.Cmd := do
  match ← cmd t with
  | .insert _ => return .insert (← noCrlfText)
  | .replace _ => return .replace (← windowsText)
  | .reload _ => return .reload (← windowsText)
  | .deleteRange _ _ => return .delete
  | .startGroup => return .undo
  | c => return c

/-- A buffer holding text with CRLF line ends, its cursor anywhere. -/
@[inline] def withWindows (f : Buf → Doc → Gen Bool) : Gen Bool := do
  let t ← windowsText
  let cs ← upTo 3 (windowsCmd t)
  let p ← placeOf t
  match session S A (some t) (cs ++ [.move (.to p)]) with
  | some (b, d) => f b d
  | none => pure true

def windowsReport : List (String × Bool) := [
  check "C100_clusters" 300 do return o_C100_clusters S Demo.table (← upTo 5 windowsChunk),
  check "C100_gap_buffer" 300 do
    let t ← windowsText
    let cs ← upTo 5 (gapCall t)
    let cs ← cs.mapM fun c => match c with | .insert _ p => return GapBuffer.Call.insert (← windowsText) p | c => return c
    return o_C100_gap_buffer S A Demo.table 0 t cs,
  check "C100_editing_session" 300 do
    let t ← windowsText
    return o_C100_editing_session S A Demo.table (if ← coin then none else some t) (← upTo 6 (windowsCmd t)) (← below 2),
  check "C100_delete_crlf" 300 (withWindows fun b d => return o_C100_delete_crlf S A Demo.table b d),
  check "C51_movement" 300 do
    let t ← (upTo 8 (pick ['a'] [['a'], ['\r', '\n'], ['b']]) : Gen (List Text))
    let t := t.flatten
    match session S A (some t) [.move (.to ⟨0, ← below 6⟩), .insert ['x'], .move (.to ⟨0, ← below 9⟩)] with
    | some (b, d) =>
      let m ← pick Cursor.Move.left [.left, .right, .up, .down, .startOfLine, .endOfLine, .firstLine, .lastLine, .to ⟨0, ← below 9⟩]
      return o_C51_movement S A b d m
    | none => return true,
  check "C100_paste_undo" 300 (withWindows fun b d => return o_C100_paste_undo S A Demo.table b d (← windowsText))]

/-- All checks. -/
def report : List (String × Bool) :=
  gapReport ++ bufReport ++ exactReport ++ ordinaryReport ++ fileReport ++ tokenReport ++ workspaceReport ++ machineReport ++ programReport ++ editorReport ++ sharedReport ++ directReport ++ typingReport ++ findReport ++ batchReport ++ unwindReport ++ convReport ++ guardReport ++ cacheReport ++ sheetReport ++ markReport ++ concurrentReport ++ officeReport ++ dialogueReport ++ overlapReport ++ windowsReport ++ errorReport

end Scribe.Oracle.Samples
