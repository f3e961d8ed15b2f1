import Verif.RepoTests.Buffer
import Verif.RepoTests.Token
import Verif.Model.Workspace
/-!
# Tests of src/workspace.rs

The syntax set is one with the three definitions that the tests mention.
-/
namespace Scribe.RepoTests.WorkspaceTests

/-- What the tests use of the default syntax set of `syntect`, definitions being given by their names. -/
def syntaxes : Syntaxes Text where
  find e := if e = s "rs" then some (s "Rust") else if e = s "Makefile" then some (s "Makefile") else none
  plain := s "Plain Text"

/-- `Workspace::new(Path::new("tests/sample"), None).unwrap()`. -/
def workspace : R (Workspace Text) := unwrap (Workspace.new sample (rel ["tests", "sample"]) (some syntaxes))

/-- `Buffer::from_file(Path::new("tests/sample/…")).unwrap()`. -/
def fromFile (name : String) : R (FileBuf Text) := unwrap (FileBuf.fromFile A 0 sample sample (rel ["tests", "sample", name]))

/-- `Buffer::new()` with a text inserted. -/
def bufWith (x : String) : R (FileBuf Text) := do
  let b : FileBuf Text := FileBuf.new A 0
  return { b with buf := ← b.buf.insert S A (s x) }

/-- `workspace.open_buffer(Path::new("tests/sample/file")).unwrap()`. -/
def openFile (w : Workspace Text) : R (Workspace Text) := do
  let (ok, w) ← w.openBuffer A 0 sample sample sample (rel ["tests", "sample", "file"])
  check ok
  return w

/-- `workspace.current_buffer.as_ref().unwrap().data()`. -/
def currentIs (w : Workspace Text) (x : String) : R Unit := do
  dataIs (← unwrap w.current).buf x

/-- The name of the syntax definition of the current buffer. -/
def syntaxIs (w : Workspace Text) (x : String) : R Unit := do
  check ((← unwrap (← unwrap w.current).syn) = s x)

/-! ## src/workspace.rs:493-868 -/

theorem add_buffer_adds_and_selects_the_passed_buffer : Passes (do
    let w ← workspace
    let w ← w.addBuffer A (← fromFile "file")
    check (w.buffers.length = 1)
    currentIs w "it works!\n") := by decide +kernel

theorem add_buffer_inserts_the_new_buffer_after_the_current_buffer : Passes (do
    let w ← workspace
    let w ← w.addBuffer A (← bufWith "one")
    let w ← w.addBuffer A (← bufWith "two")
    let w ← w.previousBuffer A
    let w ← w.addBuffer A (← bufWith "three")
    let w ← w.previousBuffer A
    currentIs w "one") := by decide +kernel

theorem add_buffer_populates_buffers_with_unique_id_values : Passes (do
    let w ← workspace
    let w ← w.addBuffer A (FileBuf.new A 0)
    check ((← unwrap (← unwrap w.current).id) = 0)
    let w ← w.addBuffer A (FileBuf.new A 0)
    check ((← unwrap (← unwrap w.current).id) = 1)
    let w ← w.addBuffer A (FileBuf.new A 0)
    check ((← unwrap (← unwrap w.current).id) = 2)) := by decide +kernel

theorem add_buffer_populates_buffers_without_paths_using_plain_text_syntax : Passes (do
    let w ← workspace
    let w ← w.addBuffer A (FileBuf.new A 0)
    syntaxIs w "Plain Text") := by decide +kernel

theorem add_buffer_populates_buffers_with_unknown_extensions_using_plain_text_syntax : Passes (do
    let w ← workspace
    let w ← w.addBuffer A (← fromFile "file")
    syntaxIs w "Plain Text") := by decide +kernel

theorem open_buffer_adds_and_selects_the_buffer_at_the_specified_path : Passes (do
    let w ← workspace
    let w ← openFile w
    check (w.buffers.length = 1)
    currentIs w "it works!\n") := by decide +kernel

theorem open_buffer_does_not_open_a_buffer_already_in_the_workspace : Passes (do
    let w ← workspace
    let w ← openFile w
    let w ← openFile w
    check (w.buffers.length = 1)) := by decide +kernel

theorem open_buffer_selects_buffer_if_it_already_exists_in_workspace : Passes (do
    let w ← workspace
    let w ← openFile w
    let w ← w.addBuffer A (← bufWith "scribe")
    currentIs w "scribe"
    let w ← openFile w
    check (w.buffers.length = 2)
    currentIs w "it works!\n") := by decide +kernel

theorem current_buffer_returns_none_when_there_are_no_buffers : Passes (do
    let w ← workspace
    check w.current.isNone) := by decide +kernel

theorem current_buffer_returns_one_when_there_are_buffers : Passes (do
    let w ← workspace
    let w ← w.addBuffer A (← fromFile "file")
    check w.current.isSome) := by decide +kernel

theorem current_buffer_path_works_with_absolute_paths : Passes (do
    let w ← workspace
    let w ← w.addBuffer A { FileBuf.new A 0 with path := some here }
    check (w.currentBufferPath = some here)) := by decide +kernel

theorem close_current_buffer_does_nothing_when_none_are_open : Passes (do
    let w ← workspace
    let w ← w.closeCurrentBuffer A
    check w.current.isNone) := by decide +kernel

theorem close_current_buffer_cleans_up_when_only_one_buffer_is_open : Passes (do
    let w ← workspace
    let w ← w.addBuffer A (FileBuf.new A 0)
    let w ← w.closeCurrentBuffer A
    check w.current.isNone
    check w.index.isNone) := by decide +kernel

/-- A workspace with three buffers. -/
def three (x y z : String) : R (Workspace Text) := do
  let w ← workspace
  let w ← w.addBuffer A (← bufWith x)
  let w ← w.addBuffer A (← bufWith y)
  w.addBuffer A (← bufWith z)

theorem close_current_buffer_selects_the_previous_buffer : Passes (do
    let w ← three "first buffer" "second buffer" "second buffer"
    let w ← w.previousBuffer A
    let w ← w.closeCurrentBuffer A
    currentIs w "first buffer") := by decide +kernel

theorem close_current_buffer_selects_the_next_buffer_when_current_is_at_start : Passes (do
    let w ← three "first buffer" "second buffer" "second buffer"
    let w ← w.previousBuffer A
    let w ← w.previousBuffer A
    let w ← w.closeCurrentBuffer A
    currentIs w "second buffer") := by decide +kernel

theorem previous_buffer_does_nothing_when_no_buffers_are_open : Passes (do
    let w ← workspace
    let w ← w.previousBuffer A
    check w.current.isNone) := by decide +kernel

theorem previous_buffer_when_three_are_open_selects_previous_wrapping_to_last : Passes (do
    let w ← three "first buffer" "second buffer" "third buffer"
    currentIs w "third buffer"
    let w ← w.previousBuffer A
    currentIs w "second buffer"
    let w ← w.previousBuffer A
    currentIs w "first buffer"
    let w ← w.previousBuffer A
    currentIs w "third buffer") := by decide +kernel

theorem next_buffer_does_nothing_when_no_buffers_are_open : Passes (do
    let w ← workspace
    let w ← w.nextBuffer A
    check w.current.isNone) := by decide +kernel

theorem next_buffer_when_three_are_open_selects_next_wrapping_to_first : Passes (do
    let w ← three "first buffer" "second buffer" "third buffer"
    currentIs w "third buffer"
    let w ← w.nextBuffer A
    currentIs w "first buffer"
    let w ← w.nextBuffer A
    currentIs w "second buffer"
    let w ← w.nextBuffer A
    currentIs w "third buffer") := by decide +kernel

/-- `workspace.current_buffer.as_mut().unwrap().path = Some(…)`, then `workspace.update_current_syntax().unwrap()`. -/
def setPath (w : Workspace Text) (p : Path) : R (Workspace Text) := do
  let b ← unwrap w.current
  let (ok, w) := { w with current := some { b with path := some p } }.updateCurrentSyntax
  check ok
  return w

theorem update_current_syntax_handles_files_without_extensions : Passes (do
    let w ← workspace
    let w ← w.addBuffer A (FileBuf.new A 0)
    syntaxIs w "Plain Text"
    let w ← setPath w (rel ["Makefile"])
    syntaxIs w "Makefile") := by decide +kernel

/-! Documentation examples, src/workspace.rs:50-430. Those at 50, 97, 195, 234 and 269 assert nothing; they are run. -/

theorem doc_add_buffer : Passes (do
    let w ← workspace
    let _ ← w.addBuffer A (← fromFile "file")) := by decide +kernel

theorem doc_open_buffer : Passes (do
    let w ← workspace
    let _ ← openFile w) := by decide +kernel

theorem doc_current_buffer_path : Passes (do
    let w ← workspace
    let w ← w.addBuffer A (← fromFile "file")
    check (w.currentBufferPath = some (rel ["file"]))) := by decide +kernel

theorem doc_current_buffer_index : Passes (do
    let w ← workspace
    let w ← w.addBuffer A (← fromFile "file")
    let w ← w.addBuffer A (← fromFile "file2")
    check (w.currentBufferIndex = some 1)) := by decide +kernel

theorem doc_close_current_buffer : Passes (do
    let w ← workspace
    let w ← w.addBuffer A (← fromFile "file")
    let _ ← w.closeCurrentBuffer A) := by decide +kernel

theorem doc_previous_buffer : Passes (do
    let w ← workspace
    let w ← w.addBuffer A (← fromFile "file")
    let _ ← w.previousBuffer A) := by decide +kernel

theorem doc_next_buffer : Passes (do
    let w ← workspace
    let w ← w.addBuffer A (← fromFile "file")
    let _ ← w.nextBuffer A) := by decide +kernel

/-- The plain text grammar gives one scope and no other events. -/
theorem doc_current_buffer_tokens : Passes (do
    let w ← workspace
    check (← w.currentBufferTokens).toOption.isNone
    let w ← w.addBuffer A (← bufWith "hi")
    match ← w.currentBufferTokens with
    | .error _ => check False
    | .ok (data, syn) => do
      check (syn = s "Plain Text")
      check ((← TokenTests.tokens [[(0, .push "text.plain")]] (String.ofList data)).length = 1)) := by decide +kernel

theorem doc_buffer_paths : Passes (do
    let w ← workspace
    let w ← w.addBuffer A (← fromFile "file")
    let w ← w.addBuffer A (← fromFile "file2")
    check (w.bufferPaths = [some (rel ["file"]), some (rel ["file2"])])) := by decide +kernel

theorem doc_update_current_syntax : Passes (do
    let w ← workspace
    let w ← w.addBuffer A (FileBuf.new A 0)
    syntaxIs w "Plain Text"
    let w ← setPath w (rel ["mod.rs"])
    syntaxIs w "Rust") := by decide +kernel

end Scribe.RepoTests.WorkspaceTests
