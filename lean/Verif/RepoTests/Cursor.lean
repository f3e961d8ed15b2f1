import Verif.RepoTests.Gap
import Verif.Model.Buffer
/-!
# Tests of src/buffer/cursor.rs:248-506
-/
namespace Scribe.RepoTests.CursorTests
open GapTests

theorem move_up_goes_to_eol_if_offset_would_be_out_of_range : Passes (do
    let buffer := gap "This is a test.\nAnother line that is longer."
    let cursor := Cursor.new ⟨1, 20⟩
    let cursor ← cursor.moveUp S buffer
    check (cursor.position.line = 0)
    check (cursor.position.offset = 15)) := by decide +kernel

theorem move_down_goes_to_eol_if_offset_would_be_out_of_range : Passes (do
    let buffer := gap "Another line that is longer.\nThis is a test."
    let cursor := Cursor.new ⟨0, 20⟩
    let cursor ← cursor.moveDown S buffer
    check (cursor.position.line = 1)
    check (cursor.position.offset = 15)) := by decide +kernel

theorem move_up_counts_graphemes_as_a_single_offset : Passes (do
    let buffer := gap "First नी\nSecond line"
    let cursor := Cursor.new ⟨1, 11⟩
    let cursor ← cursor.moveUp S buffer
    check (cursor.position.line = 0)
    check (cursor.position.offset = 7)) := by decide +kernel

theorem move_down_counts_graphemes_as_a_single_offset : Passes (do
    let buffer := gap "First line\nSecond नी"
    let cursor := Cursor.new ⟨0, 10⟩
    let cursor ← cursor.moveDown S buffer
    check (cursor.position.line = 1)
    check (cursor.position.offset = 8)) := by decide +kernel

theorem move_up_persists_offset_across_shorter_lines : Passes (do
    let buffer := gap "First line that is longer.\nThis is a test.\nAnother line that is longer."
    let cursor := Cursor.new ⟨2, 20⟩
    let cursor ← cursor.moveUp S buffer
    let cursor ← cursor.moveUp S buffer
    check (cursor.position.line = 0)
    check (cursor.position.offset = 20)) := by decide +kernel

theorem move_down_persists_offset_across_shorter_lines : Passes (do
    let buffer := gap "First line that is longer.\nThis is a test.\nAnother line that is longer."
    let cursor := Cursor.new ⟨0, 20⟩
    let cursor ← cursor.moveDown S buffer
    let cursor ← cursor.moveDown S buffer
    check (cursor.position.line = 2)
    check (cursor.position.offset = 20)) := by decide +kernel

theorem move_to_sets_persisted_offset : Passes (do
    let buffer := gap "First line that is longer.\nThis is a test.\nAnother line that is longer."
    let cursor := Cursor.new ⟨0, 20⟩
    let (_, cursor) ← cursor.moveTo S buffer ⟨1, 5⟩
    let cursor ← cursor.moveDown S buffer
    check (cursor.position.line = 2)
    check (cursor.position.offset = 5)) := by decide +kernel

theorem move_to_start_of_line_sets_offset_to_zero : Passes (do
    let buffer := gap "This is a test.\nAnother line."
    let cursor := Cursor.new ⟨1, 5⟩
    let cursor ← cursor.moveToStartOfLine S buffer
    check (cursor.position.line = 1)
    check (cursor.position.offset = 0)) := by decide +kernel

theorem move_to_end_of_line_counts_graphemes_as_a_single_offset : Passes (do
    let buffer := gap "First नी"
    let cursor := Cursor.new ⟨0, 0⟩
    let cursor ← cursor.moveToEndOfLine S buffer
    check (cursor.position.line = 0)
    check (cursor.position.offset = 7)) := by decide +kernel

theorem move_to_end_of_line_sets_offset_the_line_length : Passes (do
    let buffer := gap "This is a test.\nAnother line."
    let cursor := Cursor.new ⟨0, 5⟩
    let cursor ← cursor.moveToEndOfLine S buffer
    check (cursor.position.line = 0)
    check (cursor.position.offset = 15)) := by decide +kernel

theorem move_up_does_nothing_if_at_the_start_of_line : Passes (do
    let buffer := gap "This is a test."
    let cursor := Cursor.new ⟨0, 0⟩
    let cursor ← cursor.moveUp S buffer
    check (cursor.position.line = 0)
    check (cursor.position.offset = 0)) := by decide +kernel

theorem move_left_does_nothing_if_at_the_start_of_line : Passes (do
    let buffer := gap "This is a test."
    let cursor := Cursor.new ⟨0, 0⟩
    let cursor ← cursor.moveLeft S buffer
    check (cursor.position.line = 0)
    check (cursor.position.offset = 0)) := by decide +kernel

theorem move_to_last_line_counts_graphemes_as_a_single_offset : Passes (do
    let buffer := gap "First line\nLast नी"
    let cursor := Cursor.new ⟨0, 10⟩
    let cursor ← cursor.moveToLastLine S buffer
    check (cursor.position.line = 1)
    check (cursor.position.offset = 6)) := by decide +kernel

theorem move_to_last_line_moves_to_same_offset_on_last_line : Passes (do
    let buffer := gap "first\nsecond\nlast"
    let cursor := Cursor.new ⟨0, 2⟩
    let cursor ← cursor.moveToLastLine S buffer
    check (cursor.position.line = 2)
    check (cursor.position.offset = 2)) := by decide +kernel

theorem move_to_last_line_moves_to_end_of_last_line_if_offset_would_be_out_of_range : Passes (do
    let buffer := gap "first\nsecond\nlast"
    let cursor := Cursor.new ⟨0, 5⟩
    let cursor ← cursor.moveToLastLine S buffer
    check (cursor.position.line = 2)
    check (cursor.position.offset = 4)) := by decide +kernel

theorem move_to_last_line_moves_last_line_when_it_is_a_trailing_newline : Passes (do
    let buffer := gap "first\nsecond\nlast\n"
    let cursor := Cursor.new ⟨0, 2⟩
    let cursor ← cursor.moveToLastLine S buffer
    check (cursor.position.line = 3)
    check (cursor.position.offset = 0)) := by decide +kernel

theorem move_to_first_line_counts_graphemes_as_a_single_offset : Passes (do
    let buffer := gap "First नी\nLast line"
    let cursor := Cursor.new ⟨0, 9⟩
    let cursor ← cursor.moveToFirstLine S buffer
    check (cursor.position.line = 0)
    check (cursor.position.offset = 7)) := by decide +kernel

theorem move_to_first_line_moves_to_same_offset_on_first_line : Passes (do
    let buffer := gap "first\nsecond\nlast"
    let cursor := Cursor.new ⟨1, 2⟩
    let cursor ← cursor.moveToFirstLine S buffer
    check (cursor.position.line = 0)
    check (cursor.position.offset = 2)) := by decide +kernel

theorem move_to_first_line_moves_to_end_of_first_line_if_offset_would_be_out_of_range : Passes (do
    let buffer := gap "first\nsecond\nlast"
    let cursor := Cursor.new ⟨1, 6⟩
    let cursor ← cursor.moveToFirstLine S buffer
    check (cursor.position.line = 0)
    check (cursor.position.offset = 5)) := by decide +kernel

/-- Documentation example, src/buffer/cursor.rs:48-64. -/
theorem doc_move_to : Passes (do
    let buffer := Buf.new A 0
    let buffer ← buffer.insert S A (s "scribe")
    let (_, cursor) ← buffer.cursor.moveTo S buffer.data ⟨0, 2⟩
    check (cursor.position.line = 0)
    check (cursor.position.offset = 2)
    let (_, cursor) ← cursor.moveTo S buffer.data ⟨2, 2⟩
    check (cursor.position.line = 0)
    check (cursor.position.offset = 2)) := by decide +kernel

end Scribe.RepoTests.CursorTests
