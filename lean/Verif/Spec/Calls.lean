import Verif.Spec.States
import Verif.Spec.Snap
import Verif.Spec.Counts
/-!
# Sessions with a buffer

Vocabulary of the theorems about buffers: which states are meant and which calls.
-/
namespace Scribe
open Spec Buf

/-- The snapshot history alongside a sequence of calls. -/
def snaps (segs : Text → List Text) : Doc → Snap → List Cmd → Snap
  | _, s, [] => s
  | d, s, c :: cs => snaps segs (d.step segs c) (s.step segs d.cursor.position c) cs

end Scribe

namespace Scribe.Props
open Spec Buf

/-- Initial buffers: `Buffer::new()`, or a loaded file. -/
inductive Start (A : Alloc) : Buf → Doc → Text → Prop
  | new (k : Nat) : Start A (Buf.new A k) (Doc.new [] false) []
  | load (k : Nat) (t : Text) : Start A (Buf.fromContent A k t) (Doc.new t true) t

/-- Buffers that clean calls lead to, with the document they stand for. -/
inductive Reached (S : Segmenter) (A : Alloc) : Buf → Doc → Prop
  | start {b d t} (h : Start A b d t) : Reached S A b d
  | step {b d c b'} (h : Reached S A b d) (hc : CleanCmd S.segs d c) (he : exec S A b c = .ok b') : Reached S A b' (d.step S.segs c)

/-- Calls that make an edit of a buffer holding `t`. -/
def Edits (t : Text) : Cmd → Prop
  | .insert _ | .delete | .deleteRange _ _ => True
  | .replace c | .reload c => c ≠ t
  | _ => False

/-- Calls that neither edit nor touch the history. -/
def Passive : Cmd → Prop
  | .move _ | .setCursor _ | .setCallback _ | .saved => True
  | _ => False

/-- Calls made inside a group. -/
def InGroup : Cmd → Prop
  | .undo | .redo | .endGroup => False
  | _ => True

/-- Calls that certainly make an edit. -/
def IsEdit : Cmd → Prop
  | .insert _ | .delete | .deleteRange _ _ => True
  | _ => False

/-- The number of edits among calls. -/
def countEdits : List Cmd → Nat
  | [] => 0
  | .insert _ :: cs | .delete :: cs | .deleteRange _ _ :: cs => countEdits cs + 1
  | _ :: cs => countEdits cs

/-- The text on disk after a call. -/
def syncOf (d : Doc) (disk : Option Text) : Cmd → Option Text
  | .saved => some d.text
  | .reload x => some x
  | _ => disk

/-- Saves happen without edits in an open group; reloads without an open group. -/
def SyncOk (d : Doc) : Cmd → Prop
  | .saved => d.group = none ∨ d.group = some []
  | .reload _ => d.group = none
  | _ => True

/-- The text last known to be on disk: what was loaded, saved or reloaded last. -/
def lastSync (segs : Text → List Text) : Doc → Option Text → List Cmd → Option Text
  | _, disk, [] => disk
  | d, disk, c :: cs =>
    lastSync segs (d.step segs c) (syncOf d disk c) cs

/-- `SyncOk` for every call. -/
def SyncOutside (segs : Text → List Text) : Doc → List Cmd → Prop
  | _, [] => True
  | d, c :: cs =>
    SyncOk d c ∧ SyncOutside segs (d.step segs c) cs

/-- Calls after which an in-bounds cursor is still in bounds. -/
def KeepsCursor : Cmd → Prop
  | .deleteRange _ _ | .undo | .redo | .setCursor _ => False
  | _ => True

/-- Calls that replace the whole text. -/
def Swaps : Cmd → Prop
  | .replace _ | .reload _ => True
  | _ => False

/-- Calls that are there to move the cursor. -/
def MovesCursor : Cmd → Prop
  | .move _ | .setCursor _ => True
  | _ => False

/-- Every newline of the text is the end of a CRLF. -/
def CrlfOnly (t : Text) : Prop := ∀ x y, t = x ++ '\n' :: y → x.getLast? = some '\r'

/-- The cursor has no text after it: it is at the end of the text or does not exist. -/
def NothingAhead (segs : Text → List Text) (t : Text) (p : Position) : Prop :=
  exists? segs t p = false ∨ p = endPos (segs t)

/-- The numbers of a buffer. -/
def counts (b : Buf) : Counts := ⟨b.history.previous.length, b.history.next.length, b.history.mark, b.group.map List.length⟩

/-- The call replaces the contents by what they are. -/
def SameText (t : Text) : Cmd → Bool
  | .replace x | .reload x => decide (x = t)
  | _ => false

end Scribe.Props
