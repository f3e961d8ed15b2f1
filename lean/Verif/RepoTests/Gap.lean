import Verif.RepoTests.Common
import Verif.Model.Position
/-!
# Tests of src/buffer/{gap_buffer,distance,range,line_range,position}.rs
-/
namespace Scribe.RepoTests

/-! ## src/buffer/gap_buffer.rs:310-532 -/
namespace GapTests

/-- `GapBuffer::new`. -/
def gap (x : String) : GapBuffer := GapBuffer.new A 0 (s x)

theorem move_gap_works : Passes (do
    let gb := gap "This is a test."
    let gb ← gb.moveGap 0
    check ((← gb.toStr) = s "This is a test.")) := by decide +kernel

theorem inserting_at_the_start_works : Passes (do
    let gb := gap "toolkit"
    let gb ← gb.insert S A (s " ") ⟨0, 0⟩
    check ((← gb.toStr) = s " toolkit")
    let gb ← gb.insert S A (s "scribe text") ⟨0, 0⟩
    check ((← gb.toStr) = s "scribe text toolkit")) := by decide +kernel

theorem inserting_in_the_middle_works : Passes (do
    let gb := gap "    editor"
    let gb ← gb.insert S A (s " ") ⟨0, 4⟩
    let gb ← gb.insert S A (s "scribe") ⟨0, 4⟩
    check ((← gb.toStr) = s "    scribe editor")) := by decide +kernel

theorem inserting_at_the_end_works : Passes (do
    let gb := gap "This is a test."
    let gb ← gb.insert S A (s " Seriously.") ⟨0, 15⟩
    check ((← gb.toStr) = s "This is a test. Seriously.")) := by decide +kernel

theorem inserting_in_different_spots_twice_works : Passes (do
    let gb := gap "This is a test."
    let gb ← gb.insert S A (s "Hi. ") ⟨0, 0⟩
    let gb ← gb.insert S A (s " Thank you.") ⟨0, 19⟩
    check ((← gb.toStr) = s "Hi. This is a test. Thank you.")) := by decide +kernel

theorem inserting_at_an_invalid_position_does_nothing : Passes (do
    let gb := gap "This is a test."
    let gb ← gb.insert S A (s " Seriously.") ⟨0, 35⟩
    check ((← gb.toStr) = s "This is a test.")) := by decide +kernel

theorem inserting_after_a_grapheme_cluster_works : Passes (do
    let gb := gap "scribe नी"
    let gb ← gb.insert S A (s " library") ⟨0, 8⟩
    check ((← gb.toStr) = s "scribe नी library")) := by decide +kernel

theorem deleting_works : Passes (do
    let gb := gap "This is a test.\nSee what happens."
    let gb ← gb.delete S (Range.new ⟨0, 8⟩ ⟨1, 4⟩)
    check ((← gb.toStr) = s "This is what happens.")) := by decide +kernel

theorem inserting_then_deleting_at_the_start_works : Passes (do
    let gb := gap ""
    let gb ← gb.insert S A (s "This is a test.") ⟨0, 0⟩
    let gb ← gb.delete S (Range.new ⟨0, 0⟩ ⟨0, 1⟩)
    check ((← gb.toStr) = s "his is a test.")) := by decide +kernel

theorem deleting_immediately_after_the_end_of_the_gap_widens_the_gap : Passes (do
    let gb := gap "This is a test."
    let gb ← gb.delete S (Range.new ⟨0, 8⟩ ⟨0, 9⟩)
    check ((← gb.toStr) = s "This is  test.")
    check (gb.gapLength = 1)
    let gb ← gb.delete S (Range.new ⟨0, 9⟩ ⟨0, 10⟩)
    check ((← gb.toStr) = s "This is  est.")
    check (gb.gapLength = 2)) := by decide +kernel

theorem deleting_to_an_out_of_range_line_deletes_to_the_end_of_the_buffer : Passes (do
    let gb := gap "scribe\nlibrary"
    let gb ← gb.delete S (Range.new ⟨0, 6⟩ ⟨2, 10⟩)
    check ((← gb.toStr) = s "scribe")) := by decide +kernel

theorem deleting_to_an_out_of_range_column_deletes_to_the_end_of_the_buffer : Passes (do
    let gb := gap "scribe\nlibrary"
    let gb ← gb.delete S (Range.new ⟨0, 0⟩ ⟨0, 100⟩)
    check ((← gb.toStr) = s "library")) := by decide +kernel

theorem deleting_after_a_grapheme_cluster_works : Passes (do
    let gb := gap "scribe नी library"
    let gb ← gb.delete S (Range.new ⟨0, 8⟩ ⟨0, 16⟩)
    check ((← gb.toStr) = s "scribe नी")) := by decide +kernel

theorem read_does_not_include_gap_contents_when_gap_is_at_start_of_range : Passes (do
    let gb := gap "scribe"
    let range := Range.new ⟨0, 0⟩ ⟨0, 1⟩
    let gb ← gb.delete S range
    check ((← gb.toStr) = s "cribe")
    check ((← unwrap (← gb.read S range)) = s "c")) := by decide +kernel

theorem read_does_not_include_gap_contents_when_gap_is_in_middle_of_range : Passes (do
    let gb := gap "scribe"
    let gb ← gb.delete S (Range.new ⟨0, 2⟩ ⟨0, 4⟩)
    check ((← gb.toStr) = s "scbe")
    check ((← unwrap (← gb.read S (Range.new ⟨0, 0⟩ ⟨0, 4⟩))) = s "scbe")) := by decide +kernel

theorem reading_after_a_grapheme_cluster_works : Passes (do
    let gb := gap "scribe नी library"
    check ((← unwrap (← gb.read S (Range.new ⟨0, 8⟩ ⟨0, 16⟩))) = s " library")) := by decide +kernel

theorem in_bounds_considers_grapheme_clusters : Passes (do
    let gb := gap "scribe नी library"
    check (← gb.inBounds S ⟨0, 16⟩)
    check (!(← gb.inBounds S ⟨0, 17⟩))) := by decide +kernel

/-! Documentation examples, src/buffer/gap_buffer.rs:23-28, 51-57, 93-103, 140-151, 192-201 -/

theorem doc_new : Passes (do
    let buffer := gap "scribe"
    check ((← buffer.toStr) = s "scribe")) := by decide +kernel

theorem doc_insert : Passes (do
    let buffer := gap "my buffer data"
    let buffer ← buffer.insert S A (s " changed") ⟨0, 2⟩
    check (s "my changed buffer data" = (← buffer.toStr))) := by decide +kernel

theorem doc_read : Passes (do
    let buffer := gap "my data"
    check ((← unwrap (← buffer.read S (Range.new ⟨0, 3⟩ ⟨0, 7⟩))) = s "data")) := by decide +kernel

theorem doc_delete : Passes (do
    let buffer := gap "my data"
    let buffer ← buffer.delete S (Range.new ⟨0, 0⟩ ⟨0, 3⟩)
    check ((← buffer.toStr) = s "data")) := by decide +kernel

theorem doc_in_bounds : Passes (do
    let buffer := gap "scribe"
    check ((← buffer.inBounds S ⟨0, 0⟩) = true)
    check ((← buffer.inBounds S ⟨1, 3⟩) = false)) := by decide +kernel

end GapTests

/-! ## src/buffer/distance.rs:33-60 and its documentation example, 16-24 -/
namespace DistanceTests

theorem of_str_works_with_a_single_line_of_data : Distance.ofStr (s "line") = ⟨0, 4⟩ := by decide +kernel

theorem of_str_works_with_a_trailing_newline : Distance.ofStr (s "trailing newline\n") = ⟨1, 0⟩ := by decide +kernel

theorem doc_of_str : Distance.ofStr (s "scribe\ndistance") = ⟨1, 8⟩ := by decide +kernel

end DistanceTests

/-! ## src/buffer/range.rs and its documentation example, 38-58 -/
namespace RangeTests

theorem new_does_not_swap_values_if_end_does_not_precede_start : Passes (do
    let start : Position := ⟨0, 4⟩
    let stop : Position := ⟨1, 1⟩
    let range := Range.new start stop
    check (range.start = start)
    check (range.stop = stop)
    let start : Position := ⟨0, 4⟩
    let stop : Position := ⟨0, 4⟩
    let range := Range.new start stop
    check (range.start = start)
    check (range.stop = stop)) := by decide +kernel

theorem new_swaps_start_and_end_when_end_precedes_start : Passes (do
    let start : Position := ⟨1, 4⟩
    let stop : Position := ⟨1, 1⟩
    let range := Range.new start stop
    check (range.start = stop)
    check (range.stop = start)) := by decide +kernel

theorem doc_includes : Passes (do
    let range := Range.new ⟨0, 0⟩ ⟨1, 5⟩
    check (range.includes ⟨1, 0⟩)
    check (range.includes ⟨1, 4⟩)
    check (!range.includes ⟨1, 5⟩)) := by decide +kernel

end RangeTests

/-! ## src/buffer/line_range.rs and its documentation examples, 36-47, 66-77, 96-104 -/
namespace LineRangeTests

theorem new_does_not_swap_values_if_end_does_not_precede_start : Passes (do
    let range := LineRange.new 0 1
    check (range.start = 0)
    check (range.stop = 1)) := by decide +kernel

theorem new_swaps_start_and_end_when_end_precedes_start : Passes (do
    let range := LineRange.new 1 0
    check (range.start = 0)
    check (range.stop = 1)) := by decide +kernel

theorem doc_to_range : (LineRange.new 10 14).toRange = Range.new ⟨10, 0⟩ ⟨14, 0⟩ := by decide +kernel

theorem doc_to_inclusive_range : (LineRange.new 10 14).toInclusiveRange = Range.new ⟨10, 0⟩ ⟨15, 0⟩ := by decide +kernel

theorem doc_includes : (LineRange.new 10 14).includes 11 ∧ !(LineRange.new 10 14).includes 14 := by decide +kernel

end LineRangeTests

/-! ## src/buffer/position.rs -/
namespace PositionTests

theorem compare_works_when_lines_differ : Position.ltb ⟨2, 20⟩ ⟨3, 10⟩ := by decide +kernel

theorem compare_works_when_lines_are_equal : Position.ltb ⟨3, 10⟩ ⟨3, 20⟩ := by decide +kernel

theorem compare_works_when_lines_and_offsets_are_equal :
    !Position.gtb ⟨3, 10⟩ ⟨3, 10⟩ ∧ Position.geb ⟨3, 10⟩ ⟨3, 10⟩ ∧ (⟨3, 10⟩ : Position) = ⟨3, 10⟩ := by decide +kernel

theorem add_assign_works_with_zero_line_distance : Position.addAssign ⟨1, 3⟩ ⟨0, 4⟩ = ⟨1, 7⟩ := by decide +kernel

/-- Documentation example, src/buffer/position.rs:65-72. -/
theorem doc_new : Position.new = ⟨0, 0⟩ := by decide +kernel

end PositionTests
end Scribe.RepoTests
