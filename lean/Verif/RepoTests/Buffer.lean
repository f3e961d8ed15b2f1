import Verif.RepoTests.Common
import Verif.Model.Search
import Verif.Model.File
/-!
# Tests of src/buffer/mod.rs and src/buffer/operation/*.rs
-/
namespace Scribe.RepoTests

/-- The directory in which the tests are run. -/
def here : Path := [.root, .normal (enc (s "scribe"))]

/-- A relative path. -/
def rel (cs : List String) : Path := cs.map fun c => .normal (enc (s c))

/-- The files of /repo/tests/sample; the directory has no links, so that a path is made canonical by putting the current directory in front. -/
def sample : Fs where
  read p :=
    if p = rel ["tests", "sample", "file"] ∨ p = here ++ rel ["tests", "sample", "file"] then some (enc (s "it works!\n"))
    else if p = rel ["tests", "sample", "file2"] ∨ p = here ++ rel ["tests", "sample", "file2"] then some (enc (s "it also works!\n"))
    else none
  canon p :=
    if p ∈ [rel ["tests", "sample"], rel ["tests", "sample", "file"], rel ["tests", "sample", "file2"]] then some (here ++ p) else none

/-- `Buffer::from_file(Path::new("tests/sample/file")).unwrap()`, the editing part. -/
def sampleBuf : R Buf := do
  let b : FileBuf Nat ← unwrap (FileBuf.fromFile A 0 sample sample (rel ["tests", "sample", "file"]))
  return b.buf

/-- `buffer.cursor.move_to(p)`. -/
def moveTo (b : Buf) (p : Position) : R Buf := do
  let (_, c) ← b.cursor.moveTo S b.data p
  return { b with cursor := c }

/-- `buffer.data()`. -/
def dataIs (b : Buf) (x : String) : R Unit := do check ((← b.data.toStr) = s x)

/-- A change callback that stores its argument in a variable with the given first value: what the variable is in the end. -/
def tracked (b : Buf) (first : Position) : Position := b.log.getLast?.getD first

/-! ## src/buffer/mod.rs:460-726 -/
namespace BufferTests

theorem reload_persists_id_and_syntax_definition : Passes (do
    let buffer : FileBuf Nat ← unwrap (FileBuf.fromFile A 0 sample sample (rel ["tests", "sample", "file"]))
    let buffer := { buffer with id := some 1, syn := some 0 }
    let (ok, buffer) ← buffer.reload S A sample
    check ok
    check (buffer.id = some 1)
    check buffer.syn.isSome) := by decide +kernel

theorem reload_retains_full_position_when_possible : Passes (do
    let buffer ← sampleBuf
    let buffer ← moveTo buffer ⟨0, 3⟩
    let buffer ← buffer.reloadWith S A (s "it works!\n")
    check (buffer.cursor.position = ⟨0, 3⟩)) := by decide +kernel

theorem reload_retains_position_line_when_possible : Passes (do
    let buffer ← sampleBuf
    let buffer ← buffer.insert S A (s "amp\neditor")
    let buffer ← moveTo buffer ⟨1, 1⟩
    let buffer ← buffer.reloadWith S A (s "it works!\n")
    check (buffer.cursor.position = ⟨1, 0⟩)) := by decide +kernel

theorem reload_discards_position_when_impossible : Passes (do
    let buffer ← sampleBuf
    let buffer ← buffer.insert S A (s "\namp\neditor")
    let buffer ← moveTo buffer ⟨2, 1⟩
    let buffer ← buffer.reloadWith S A (s "it works!\n")
    check (buffer.cursor.position = Position.new)) := by decide +kernel

theorem reload_calls_change_callback_with_zero_position : Passes (do
    let buffer ← sampleBuf
    let buffer ← buffer.insert S A (s "amp\neditor")
    let buffer := { buffer with callback := true }
    let buffer ← buffer.reloadWith S A (s "it works!\n")
    check (tracked buffer ⟨1, 1⟩ = Position.new)) := by decide +kernel

theorem reload_marks_buffer_as_unmodified : Passes (do
    let buffer ← sampleBuf
    let buffer ← buffer.insert S A (s "amp\neditor")
    let buffer ← buffer.reloadWith S A (s "it works!\n")
    check (!buffer.modified)) := by decide +kernel

theorem reload_retains_history : Passes (do
    let buffer ← sampleBuf
    let buffer ← buffer.insert S A (s "amp\neditor")
    let buffer ← buffer.reloadWith S A (s "it works!\n")
    check buffer.history.back.1.isSome) := by decide +kernel

theorem delete_joins_lines_when_invoked_at_end_of_line : Passes (do
    let buffer := Buf.new A 0
    let buffer ← buffer.insert S A (s "scribe\n library")
    let buffer := { buffer with cursor := ← buffer.cursor.moveToEndOfLine S buffer.data }
    let buffer ← buffer.delete S A
    dataIs buffer "scribe library") := by decide +kernel

theorem delete_does_nothing_when_invoked_at_the_end_of_the_document : Passes (do
    let buffer := Buf.new A 0
    let buffer ← buffer.insert S A (s "scribe\n library")
    let buffer := { buffer with cursor := ← buffer.cursor.moveDown S buffer.data }
    let buffer := { buffer with cursor := ← buffer.cursor.moveToEndOfLine S buffer.data }
    let buffer ← buffer.delete S A
    dataIs buffer "scribe\n library") := by decide +kernel

theorem insert_is_undoable : Passes (do
    let buffer := Buf.new A 0
    let buffer ← buffer.insert S A (s "scribe")
    dataIs buffer "scribe"
    let buffer ← buffer.undo S A
    dataIs buffer "") := by decide +kernel

theorem delete_is_undoable : Passes (do
    let buffer := Buf.new A 0
    let buffer ← buffer.insert S A (s "scribe")
    dataIs buffer "scribe"
    let buffer ← moveTo buffer ⟨0, 0⟩
    let buffer ← buffer.delete S A
    dataIs buffer "cribe"
    let buffer ← buffer.undo S A
    dataIs buffer "scribe") := by decide +kernel

theorem correctly_called_operation_groups_are_undone_correctly : Passes (do
    let buffer := Buf.new A 0
    let buffer := buffer.startGroup
    let buffer ← buffer.insert S A (s "scribe")
    let buffer ← moveTo buffer ⟨0, 6⟩
    let buffer ← buffer.insert S A (s " library")
    let buffer := buffer.endGroup
    let buffer ← moveTo buffer ⟨0, 14⟩
    let buffer ← buffer.insert S A (s " test")
    dataIs buffer "scribe library test"
    let buffer ← buffer.undo S A
    dataIs buffer "scribe library"
    let buffer ← buffer.undo S A
    dataIs buffer "") := by decide +kernel

theorem non_terminated_operation_groups_are_undone_correctly : Passes (do
    let buffer := Buf.new A 0
    let buffer ← buffer.insert S A (s "scribe")
    let buffer := buffer.startGroup
    let buffer ← moveTo buffer ⟨0, 6⟩
    let buffer ← buffer.insert S A (s " library")
    let buffer ← moveTo buffer ⟨0, 14⟩
    let buffer ← buffer.insert S A (s " test")
    dataIs buffer "scribe library test"
    let buffer ← buffer.undo S A
    dataIs buffer "scribe"
    let buffer ← buffer.undo S A
    dataIs buffer "") := by decide +kernel

theorem non_terminated_empty_operation_groups_are_dropped : Passes (do
    let buffer := Buf.new A 0
    let buffer ← buffer.insert S A (s "scribe")
    let buffer := buffer.startGroup
    let buffer ← buffer.undo S A
    dataIs buffer "") := by decide +kernel

theorem search_returns_empty_set_when_there_are_no_matches : Passes (do
    let buffer := Buf.new A 0
    let buffer ← buffer.insert S A (s "scribe")
    check (← buffer.search (s "library")).isEmpty) := by decide +kernel

theorem search_does_not_panic_with_non_ascii_data : Passes (do
    let buffer := Buf.new A 0
    let buffer ← buffer.insert S A (s "scribé")
    check (← buffer.search (s "library")).isEmpty
    check (← buffer.search (s "scribe")).isEmpty
    check ((← buffer.search (s "scribé")).length > 0)) := by decide +kernel

/-! Documentation examples, src/buffer/mod.rs:83-445 -/

theorem doc_new : Passes (do
    let buffer := Buf.new A 0
    check (buffer.cursor.position.line = 0)
    check (buffer.cursor.position.offset = 0)) := by decide +kernel

theorem doc_from_file : Passes (do
    let buffer ← sampleBuf
    dataIs buffer "it works!\n"
    check (buffer.cursor.position.line = 0)
    check (buffer.cursor.position.offset = 0)) := by decide +kernel

theorem doc_data : Passes (do
    let buffer := Buf.new A 0
    let buffer ← buffer.insert S A (s "scribe")
    dataIs buffer "scribe") := by decide +kernel

/-- The operating system opens file 7 and writes everything at once. -/
theorem doc_save : Passes (do
    let buffer : FileBuf Nat := { FileBuf.new A 0 with path := some (rel ["my_doc"]) }
    let buffer := { buffer with buf := ← buffer.buf.insert S A (s "scribe") }
    let (disks, ending, _) ← buffer.save ⟨some (some 7), [.wrote 6]⟩ fun _ => none
    check (ending = .ok)
    check (disks.getLast?.bind (· 7) = some (enc (s "scribe")))) := by decide +kernel

theorem doc_file_name : Passes (do
    let buffer : FileBuf Nat ← unwrap (FileBuf.fromFile A 0 sample sample (rel ["tests", "sample", "file"]))
    check ((← unwrap buffer.fileName) = s "file")) := by decide +kernel

theorem doc_undo : Passes (do
    let buffer := Buf.new A 0
    let buffer ← buffer.insert S A (s "scribe")
    let buffer ← moveTo buffer ⟨0, 6⟩
    let buffer ← buffer.insert S A (s " library")
    dataIs buffer "scribe library"
    let buffer ← buffer.undo S A
    dataIs buffer "scribe"
    let buffer ← buffer.undo S A
    dataIs buffer "") := by decide +kernel

theorem doc_redo : Passes (do
    let buffer := Buf.new A 0
    let buffer ← buffer.insert S A (s "scribe")
    let buffer ← buffer.undo S A
    dataIs buffer ""
    let buffer ← buffer.redo S A
    dataIs buffer "scribe") := by decide +kernel

theorem doc_read : Passes (do
    let buffer := Buf.new A 0
    let buffer ← buffer.insert S A (s "scribe")
    check (s "crib" = (← unwrap (← buffer.data.read S (Range.new ⟨0, 1⟩ ⟨0, 5⟩))))) := by decide +kernel

theorem doc_search : Passes (do
    let buffer := Buf.new A 0
    let buffer ← buffer.insert S A (s "scribe\nlibrary")
    check ((← buffer.search (s "ib")) = [⟨0, 3⟩, ⟨1, 1⟩])) := by decide +kernel

theorem doc_modified : Passes (do
    let buffer ← sampleBuf
    check (!buffer.modified)
    let buffer ← buffer.insert S A (s "scribe")
    check buffer.modified
    let buffer ← buffer.undo S A
    check (!buffer.modified)
    let buffer := Buf.new A 0
    check buffer.modified) := by decide +kernel

theorem doc_line_count : Passes (do
    let buffer := Buf.new A 0
    let buffer ← buffer.insert S A (s "scribe\nlibrary\n")
    check ((← buffer.lineCount) = 3)) := by decide +kernel

theorem doc_reload : Passes (do
    let buffer : FileBuf Nat ← unwrap (FileBuf.fromFile A 0 sample sample (rel ["tests", "sample", "file"]))
    let buffer := { buffer with buf := ← buffer.buf.insert S A (s "scribe\nlibrary\n") }
    let buffer := { buffer with buf := ← moveTo buffer.buf ⟨1, 0⟩ }
    let (_, buffer) ← buffer.reload S A sample
    dataIs buffer.buf "it works!\n"
    check (buffer.buf.cursor.position = ⟨1, 0⟩)) := by decide +kernel

theorem doc_file_extension : Passes (do
    let buffer : FileBuf Nat := { FileBuf.new A 0 with path := some (rel ["file.txt"]) }
    check ((← unwrap buffer.fileExtension) = s "txt")
    let buffer := { buffer with path := some (rel ["Makefile"]) }
    check buffer.fileExtension.isNone) := by decide +kernel

end BufferTests

/-! ## src/buffer/operation/delete.rs:138-262 -/
namespace DeleteTests

theorem run_and_reverse_remove_and_add_content_without_newlines_at_cursor_position : Passes (do
    let buffer := Buf.new A 0
    let buffer ← buffer.insert S A (s "something else")
    let op := SOp.delete none (Range.new ⟨0, 9⟩ ⟨0, 14⟩)
    let (buffer, op) ← buffer.runOp S A op
    dataIs buffer "something"
    let buffer ← buffer.reverseOp S A op
    dataIs buffer "something else") := by decide +kernel

theorem run_and_reverse_remove_and_add_content_with_newlines_at_cursor_position : Passes (do
    let buffer := Buf.new A 0
    let buffer ← buffer.insert S A (s "\n something\n else\n entirely")
    let op := SOp.delete none (Range.new ⟨1, 10⟩ ⟨3, 9⟩)
    let (buffer, op) ← buffer.runOp S A op
    dataIs buffer "\n something"
    let buffer ← buffer.reverseOp S A op
    dataIs buffer "\n something\n else\n entirely") := by decide +kernel

theorem run_calls_change_callback_with_position : Passes (do
    let buffer := Buf.new A 0
    let buffer ← buffer.insert S A (s "something else")
    let buffer := { buffer with callback := true }
    let (buffer, _) ← buffer.runOp S A (.delete none (Range.new ⟨0, 9⟩ ⟨0, 14⟩))
    check (tracked buffer Position.new = ⟨0, 9⟩)) := by decide +kernel

theorem reverse_calls_change_callback_with_position : Passes (do
    let buffer := Buf.new A 0
    let buffer ← buffer.insert S A (s "something else")
    let (buffer, op) ← buffer.runOp S A (.delete none (Range.new ⟨0, 9⟩ ⟨0, 14⟩))
    let buffer := { buffer with callback := true }
    let buffer ← buffer.reverseOp S A op
    check (tracked buffer Position.new = ⟨0, 9⟩)) := by decide +kernel

/-! Documentation examples, src/buffer/operation/delete.rs:69-76, 106-122 -/

theorem doc_delete : Passes (do
    let buffer := Buf.new A 0
    let buffer ← buffer.insert S A (s "scribe")
    let buffer ← buffer.delete S A
    dataIs buffer "cribe") := by decide +kernel

theorem doc_delete_range : Passes (do
    let buffer := Buf.new A 0
    let buffer ← buffer.insert S A (s "scribe library")
    let buffer ← buffer.deleteRange S A (Range.new ⟨0, 6⟩ ⟨0, 14⟩)
    dataIs buffer "scribe") := by decide +kernel

end DeleteTests

/-! ## src/buffer/operation/group.rs:93-142 -/
namespace GroupTests

theorem run_and_reverse_call_themselves_on_all_operations : Passes (do
    let buffer := Buf.new A 0
    let group : Op := .group [.insert (s "something") ⟨0, 0⟩, .insert (s " else") ⟨0, 9⟩]
    let buffer ← buffer.runAny S A group
    dataIs buffer "something else"
    let buffer ← buffer.reverseAny S A group
    dataIs buffer "") := by decide +kernel

theorem end_operation_group_drops_group_if_empty : Passes (do
    let buffer := Buf.new A 0
    let buffer ← buffer.insert S A (s "amp")
    let buffer := buffer.startGroup
    let buffer := buffer.endGroup
    let buffer ← buffer.undo S A
    dataIs buffer "") := by decide +kernel

end GroupTests

/-! ## src/buffer/operation/history.rs:77-229 -/
namespace HistoryTests

/-- `Insert::new("scribe".to_string(), Position { line: 0, offset: 0 })`. -/
def op : Op := .simple (.insert (s "scribe") ⟨0, 0⟩)

theorem previous_and_next_return_the_correct_operations : Passes (do
    let history := History.new
    let buffer := Buf.new A 0
    let buffer ← buffer.runAny S A op
    let history := history.add op
    dataIs buffer "scribe"
    let (o, history) := history.back
    let buffer ← o.elim (.ok buffer) (buffer.reverseAny S A)
    dataIs buffer ""
    let (o, history) := history.forth
    let buffer ← o.elim (.ok buffer) (buffer.runAny S A)
    dataIs buffer "scribe"
    let (o, _) := history.back
    let buffer ← o.elim (.ok buffer) (buffer.reverseAny S A)
    dataIs buffer "") := by decide +kernel

theorem adding_a_new_operation_clears_redo_stack : Passes (do
    let history := History.new.add op
    let (o, history) := history.back
    check o.isSome
    let history := history.add op
    check history.forth.1.isNone) := by decide +kernel

theorem marking_the_history_works_without_subsequent_method_calls : Passes (do
    let history := History.new
    check (!history.atMark)
    let history := history.setMark
    check history.atMark) := by decide +kernel

theorem history_is_not_at_mark_after_adding_an_operation : Passes (do
    let history := History.new.setMark
    let history := history.add op
    check (!history.atMark)) := by decide +kernel

theorem history_is_at_mark_after_adding_and_reversing_an_operation : Passes (do
    let history := History.new.setMark
    let history := history.add op
    let (_, history) := history.back
    check history.atMark) := by decide +kernel

theorem history_is_at_mark_after_toggling_an_operation : Passes (do
    let history := History.new.add op
    let history := history.setMark
    let (_, history) := history.back
    let (_, history) := history.forth
    check history.atMark) := by decide +kernel

theorem history_is_not_at_mark_after_replacing_an_operation : Passes (do
    let history := History.new.add op
    let history := history.setMark
    let (_, history) := history.back
    let history := history.add op
    check (!history.atMark)) := by decide +kernel

end HistoryTests

/-! ## src/buffer/operation/insert.rs:112-277 -/
namespace InsertTests

/-- Inserts a text into a new buffer, then runs and reverses an insertion. -/
def runAndReverse (first : Option String) (content : String) (p : Position) (during after : String) : R Unit := do
  let buffer := Buf.new A 0
  let buffer ← first.elim (.ok buffer) fun x => buffer.insert S A (s x)
  let (buffer, op) ← buffer.runOp S A (.insert (s content) p)
  dataIs buffer during
  let buffer ← buffer.reverseOp S A op
  dataIs buffer after

theorem run_and_reverse_add_and_remove_content_without_newlines_at_cursor_position :
    Passes (runAndReverse (some "something") " else" ⟨0, 9⟩ "something else" "something") := by decide +kernel

theorem run_and_reverse_add_and_remove_content_with_newlines_at_cursor_position :
    Passes (runAndReverse (some "\n something") "\n else\n entirely" ⟨1, 10⟩ "\n something\n else\n entirely" "\n something") := by decide +kernel

theorem reverse_removes_a_newline : Passes (runAndReverse none "\n" ⟨0, 0⟩ "\n" "") := by decide +kernel

theorem reverse_correctly_removes_line_ranges :
    Passes (runAndReverse (some "scribe\nlibrary\n") "editor\n" ⟨1, 0⟩ "scribe\neditor\nlibrary\n" "scribe\nlibrary\n") := by decide +kernel

theorem reverse_correctly_removes_single_line_content_with_graphemes :
    Passes (runAndReverse (some "scribe\nlibrary") "नी editor " ⟨1, 0⟩ "scribe\nनी editor library" "scribe\nlibrary") := by decide +kernel

theorem reverse_correctly_removes_multi_line_content_with_graphemes :
    Passes (runAndReverse (some "scribe\nlibrary") "\nनी editor" ⟨0, 6⟩ "scribe\nनी editor\nlibrary" "scribe\nlibrary") := by decide +kernel

theorem run_calls_change_callback_with_position : Passes (do
    let buffer := Buf.new A 0
    let buffer ← buffer.insert S A (s "something")
    let buffer := { buffer with callback := true }
    let (buffer, _) ← buffer.runOp S A (.insert (s " else") ⟨0, 9⟩)
    check (tracked buffer Position.new = ⟨0, 9⟩)) := by decide +kernel

theorem reverse_calls_change_callback_with_position : Passes (do
    let buffer := Buf.new A 0
    let buffer ← buffer.insert S A (s "something")
    let (buffer, op) ← buffer.runOp S A (.insert (s " else") ⟨0, 9⟩)
    let buffer := { buffer with callback := true }
    let buffer ← buffer.reverseOp S A op
    check (tracked buffer Position.new = ⟨0, 9⟩)) := by decide +kernel

/-- Documentation example, src/buffer/operation/insert.rs:90-96. -/
theorem doc_insert : Passes (do
    let buffer := Buf.new A 0
    let buffer ← buffer.insert S A (s "scribe")
    dataIs buffer "scribe") := by decide +kernel

end InsertTests

/-! ## src/buffer/operation/replace.rs:120-230 -/
namespace ReplaceTests

theorem replace_retains_full_position_when_possible : Passes (do
    let buffer := Buf.new A 0
    let buffer ← buffer.insert S A (s "amp editor")
    let buffer ← moveTo buffer ⟨0, 3⟩
    let buffer ← buffer.replace S A (s "scribe")
    check (buffer.cursor.position = ⟨0, 3⟩)) := by decide +kernel

theorem replace_retains_position_line_when_possible : Passes (do
    let buffer := Buf.new A 0
    let buffer ← buffer.insert S A (s "amp\neditor")
    let buffer ← moveTo buffer ⟨1, 1⟩
    let buffer ← buffer.replace S A (s "scribe\n")
    check (buffer.cursor.position = ⟨1, 0⟩)) := by decide +kernel

theorem replace_discards_position_when_impossible : Passes (do
    let buffer := Buf.new A 0
    let buffer ← buffer.insert S A (s "\namp\neditor")
    let buffer ← moveTo buffer ⟨2, 1⟩
    let buffer ← buffer.replace S A (s "scribe\n")
    check (buffer.cursor.position = Position.new)) := by decide +kernel

theorem replace_calls_change_callback_with_zero_position : Passes (do
    let buffer := Buf.new A 0
    let buffer ← buffer.insert S A (s "amp\neditor")
    let buffer := { buffer with callback := true }
    let buffer ← buffer.replace S A (s "scribe")
    check (tracked buffer ⟨1, 1⟩ = Position.new)) := by decide +kernel

theorem replace_flags_buffer_as_modified : Passes (do
    let buffer ← sampleBuf
    let buffer ← buffer.replace S A (s "scribe")
    check buffer.modified) := by decide +kernel

theorem replace_is_reversible : Passes (do
    let buffer ← sampleBuf
    let buffer ← buffer.replace S A (s "scribe")
    let buffer ← buffer.undo S A
    dataIs buffer "it works!\n") := by decide +kernel

theorem replace_does_nothing_if_replacement_matches_buffer_contents : Passes (do
    let buffer ← sampleBuf
    let buffer ← buffer.replace S A (s "it works!\n")
    check (!buffer.modified)
    check buffer.history.back.1.isNone) := by decide +kernel

/-- Documentation example, src/buffer/operation/replace.rs:65-75. -/
theorem doc_replace : Passes (do
    let buffer := Buf.new A 0
    let buffer ← buffer.insert S A (s "scribe\nlibrary\n")
    let buffer ← moveTo buffer ⟨1, 1⟩
    let buffer ← buffer.replace S A (s "new\ncontent")
    dataIs buffer "new\ncontent"
    check (buffer.cursor.position = ⟨1, 1⟩)) := by decide +kernel

end ReplaceTests
end Scribe.RepoTests
