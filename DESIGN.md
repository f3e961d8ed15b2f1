# Formal model of jmacdonald/scribe in Lean 4

`properties.jsonl` lists the properties, `MANIFEST.json` says which theorems prove them, `lean/` is the Lake project, `AXIOMS.md` lists the axioms
of every theorem, `seeded/` holds the tests of the theorems against wrong programs.

## 1. Layers

Imports go downwards only: models know nothing of specifications, specifications nothing of proofs.

| directory | contents |
|---|---|
| `Verif/Model` | the code, function by function; every definition cites file and lines of `/repo` |
| `Verif/Spec` | what the statements of the theorems talk about: texts, positions, documents, snapshot histories, lists of buffers; small, executable where possible |
| `Verif/Proofs` | supporting lemmas |
| `Verif/Props` | the property theorems `C<nn>_…`, each with an `example` on a concrete non-trivial case |
| `Verif/Oracle` | executable forms of the theorems, proved to follow from them, and samples (section 6) |
| `Verif/RepoTests` | all 116 unit tests and 39 documentation examples of `/repo/src`, with the same names and literals, run on the model by the kernel |
| `Verif/Demo.lean` | a concrete character table and two allocators, for the examples |

| model | source | covers |
|---|---|---|
| `Model/Rust` | std | panics as `Except Panic`; checked subtraction, slices, indices; UTF-8 encoding, `from_utf8_lossy`, `from_utf8`; `Vec` growth |
| `Model/Str` | std | `str::lines`, `split('\n')`, `char_indices`, `str` slices |
| `Model/Segmenter`, `Model/Uax29` | crate unicode-segmentation | `graphemes(true)`: a structure `Segmenter` with laws; the whole UAX #29 automaton for an arbitrary character table, proved to satisfy them |
| `Model/Position` | buffer/{position,distance,range,line_range}.rs | all functions |
| `Model/GapBuffer` | buffer/gap_buffer.rs | all functions, on bytes; the allocator may hand out any spare capacity with any stale bytes (`Alloc`) |
| `Model/Cursor` | buffer/cursor.rs | all movements |
| `Model/Buffer` | buffer/mod.rs, buffer/operation/*.rs | `Insert`, `Delete`, `Replace`, `OperationGroup`, `History`, `Buffer`; the callback as a log of positions |
| `Model/Search` | buffer/mod.rs | `search` |
| `Model/File` | buffer/mod.rs | `from_file`, `save` with every outcome of every system call and every crash point, `reload`, `file_name`, `file_extension`, paths |
| `Model/LineIterator`, `Model/Token` | util/line_iterator.rs, buffer/token/*.rs | all functions, over an arbitrary highlighter |
| `Model/Workspace` | workspace.rs | all functions, over an arbitrary syntax set and a file system that may change at any time |
| `Model/Session` | workspace.rs, buffer/mod.rs | a program using a workspace and, through `current_buffer`, the buffer in it |
| `Model/Editor` | workspace.rs, buffer/mod.rs | as `Model/Session`, with a disk that only the program changes: opening, saving and reloading files |
| `Model/Office` | workspace.rs, buffer/mod.rs | several such programs on one disk, and others that change files |
| `Model/Dialogue` | workspace.rs, buffer/mod.rs, buffer/cursor.rs | as `Model/Editor`, with the values that the calls return and with calls that only ask |
| `Model/Overlap` | buffer/mod.rs: save | any number of saves whose system calls are interleaved, each with its own file handle |
| `Model/Fields` | workspace.rs | the same, with assignments to the public fields of the workspace |
| `Model/Unwind` | buffer/mod.rs, buffer/operation/*.rs again | the same functions with the buffer that a panicking callback leaves behind |
| `Model/Convert` | buffer/operation/insert.rs, replace.rs: the generic functions again | `insert` and `replace` with conversions that may panic, and the buffer that is left |
| `Model/Guarded` | buffer/mod.rs, buffer/cursor.rs, buffer/operation/*.rs again | the same functions while the caller holds a guard of the gap buffer, with the buffer that a panic leaves behind |
| `Model/Uninit` | buffer/gap_buffer.rs again | the same functions on memory in which using a byte nobody wrote is a fault |
| `Model/Cost` | buffer/gap_buffer.rs again | the functions that write, with a counter of bytes copied; looking up positions is counted in `Model/Reading` |
| `Model/Reading` | buffer/gap_buffer.rs again | the functions with counters of bytes decoded and clusters looked at |
| `Model/BufferReading` | buffer/cursor.rs, buffer/operation/*, buffer/mod.rs again | the calls of a buffer with these counters |
| `Model/Debug` | `derive(Debug)` of `position.rs`, `distance.rs`, `range.rs`, `line_range.rs`, `token/mod.rs` | `{:?}` and `{:#?}` as `core::fmt` writes them; printable characters and the output of scopes are parameters |
| `Model/PathStr` | the functions of `std::path` that buffer/mod.rs and workspace.rs call | paths as strings of bytes (Unix); the other models begin with their components |
| `Model/Errors` | errors.rs, buffer/mod.rs, workspace.rs, buffer/token/token_set.rs | the functions that can fail, with the kind of error; file systems that say which error they give |
| `Model/Machine`, `Model/MachineRest` | all files again | the same functions in machine arithmetic of any width (`Word`: 16, 32, 64 bits, …), debug (overflow panics) and release (overflow wraps) |
| `Model/Shared` | buffer/*.rs again | the same functions with `Rc<RefCell<GapBuffer>>` explicit: a heap of cells with guards, pointers shared by buffer and cursor, callbacks as arbitrary functions on the heap |
| `Model/Caller` | buffer/operation/{insert,replace}.rs again | `insert` and `replace` with arguments whose conversions are arbitrary code of the caller |
| `Model/Heap` | buffer/mod.rs, buffer/cursor.rs, operation/*.rs again | every `Rc::new`, `Rc::clone` and drop, with counts and freed cells; programs that clone, assign and drop cursors, pointers, callbacks and buffers |
| `Model/TokenUnwind` | buffer/token/token_iterator.rs again | the iterator that a call of `next` leaves if it is unwound by a panic (of slicing, of the parser, of the scope stack) |

C58/C59 and C72/C73 relate `Machine` and `MachineRest`, which cover every `+` and `-` of the crate, to the main model, C62–C65 relate `Shared` to it; so the main model may use unbounded numbers and a gap buffer by value.

## 2. The central difficulty

Positions are (line, grapheme offset). `find_offset` segments the text before and after the gap *separately*, so what a position means depends on
where the gap is whenever the gap splits a cluster of the whole text. The model is therefore proved at two levels.

* **Level 1, unconditional.** `Rep g pre post`: the bytes of `g` are `utf8 pre ++ gap ++ utf8 post`. Every operation from every such
  state, with every allocator, is panic-free, preserves `Rep` and edits one contiguous piece of text (C01, C02, C45, C47, C56).
* **Level 2, aligned.** `Holds S g t`: additionally the gap is on a cluster boundary of `t`. Every operation is then exactly the textual
  specification, and keeps the gap aligned if it does not merge clusters. Calls for which undo also works are called *clean* (`CleanCmd`, a
  decidable condition on the text and the call, not on the gap). C49 shows that ordinary text (letters with marks, emoji, flags, Hangul, no CR) is always clean.

C67 and C68 close the gap between the two levels: they say exactly what happens for *every* sequence of calls, by specifications that keep the text before and
after the gap apart and remember recipes rather than texts. They are complete but say little by themselves; C03–C19 say what is good, for clean calls.

Where the code violates what one would expect outside these conditions, that is itself proved: C50–C55, C60, C66, C69 are findings (section 5).

## 3. How the properties are proved

| id | method |
|---|---|
| C01, C02, C45, C47, C56, C57 | level-1 invariants by induction over arbitrary call lists |
| C03–C11 | level 2: refinement of each gap-buffer function to the textual specification |
| C12–C17, C25, C46 | simulation of `Buffer` by an abstract document `Doc` (text, undo and redo lists, open group, mark) for all clean call lists; then of `Doc` by a snapshot history |
| C18, C19 | invariant linking the mark to the snapshot at that depth |
| C20–C22, C24 | file model with failing and crashing steps; UTF-8 round trip |
| C23, C26–C29 | direct theorems about cursor functions |
| C30, C31, C35 | list induction |
| C32–C34 | algebra |
| C36, C37, C48, C70, C71 | invariant of the iterator over an arbitrary highlighter; totality by a decreasing measure |
| C38–C44 | refinement of the swap-out representation of the workspace to a list with a selection |
| C49 | closed sets of clusters; the ordinary clusters of the UAX #29 automaton form one |
| C50–C55, C60, C66 | findings: universally quantified descriptions of wrong behaviour, or counterexamples evaluated by the kernel |
| C58, C59, C61, C72, C73 | simulation between machine arithmetic of any width and unbounded arithmetic with size bounds (`isize::MAX` limit of `Vec`) |
| C62–C65 | simulation between the heap with cells and values |
| C66 | the state after the call of the callback is a buffer by value with another text; `Holds.delete` on that. For ordinary text the clusters of the three pieces add up, so the number of clusters left is not that of the text |
| C67, C68 | exact simulation without any condition: the gap buffer by two strings (`Spec/Zipper`), the buffer by a document of recipes (`Spec/Recipe`) |
| C69 | consequences of C68 |
| C74 | C68 and the refinement behind C38 put together, with programs that act on the workspace and on the buffer in it |
| C75 | simulation between memory with unwritten bytes and ordinary bytes |
| C76 | the refinement behind C38 for two more kinds of state: current buffer taken out, stray buffer in an empty workspace |
| C77 | the automaton reads the text once, the rules (`Spec/Grapheme`) look at what is before and after a place: invariant about what each state knows of the text before |
| C78 | C04–C08 for positions at line starts; C12 and C50 |
| C79 | invariant over the workspace and the disk: the text of the mark (as in C19) is what is in the file, all paths are canonical and different |
| C80 | on the two strings of C67: a reallocation happens only when text and inserted bytes exceed the block, so twice the block is at most twice those |
| C81 | each counted function is the plain one with a cost; the cost of a move is the distance of the gap, 0 when typing; growth pays for the rest |
| C82 | case analysis; the functions with kinds of errors agree with those without (`C82_same`), so C42 gives that the workspace is unchanged; `writeAllE_stop`: induction on the writes for the error of a save |
| C83 | C74 gives text and syntax of the current buffer, C36 and C37 the tokens; errors are traced through the iterator to the highlighter |
| C84 | invariant of C62 for every buffer of the program; edits do not depend on the pointer of the cursor (`Twin`), so C63 and C56 apply |
| C85 | each key, backspace and delete is computed on the document of C09 over a closed set of clusters (C49), then induction on the number of keys |
| C86 | results of `search` are the places of the needle (C30); replacing from the last to the first is by induction on the text, each edit on the document of C09; undo is C16; that another place is changed after a cluster of more than one byte is by comparing the byte count with `endPos` |
| C87 | every step on the disk is an action of C74, or a save, whose bytes are counted (`written`); so the documents of C74 and the files are kept in step |
| C88 | induction on the edits: those after a place do not move it (backward), those before it are counted in the position (forward); undo is C16 |
| C89 | as C88 for one deletion and one insertion; reading is C07 |
| C90 | each function with unwinding follows the plain one up to the callback (`Follows`); for groups the part done is a prefix, by induction |
| C91 | induction over the session with C25; for tokens, two iterators in lockstep that differ only in what their line iterators still hold (`next_twin`) |
| C92 | simulation `sheetOf (d.step c) = (sheetOf d).step c` between documents and pages (`rows_insertAt`, `rows_deleteRange`, `move_rows`), after the simulation of buffers by documents |
| C93 | an edit within a row sets that row of the page (`rowEdit_step`); induction over the edits |
| C94 | splitting at the last dot (`splitDot_dot`); a byte below 128 occurs in an encoding only as that character (`mem_enc_ascii`) |
| C95 | `afterInsert (endPos a) (endPos s) (endPos (a ++ x)) = endPos (a ++ s ++ x)`, injectivity and monotony of the arithmetic; induction over the session with `locate` |
| C96 | both orders of two edits lead to `mix`, the clusters woven with what is put in (`meet_put`, `meet_put_cut`, `meet_cut`: cases by where the places lie); sequences by the grid of single edits (`meet_past`, `meet_pastAll`); then `Tri.execAll` |
| C97 | `Desks` (C87) for every program at once (`Busy`); a step that does not read files gives the same workspace on every disk (`step_blind`); `step_file` for the files |
| C98 | `Desks` (C87): each answer from the description of the buffer (`Desks.reply`, `Desks.result`), `search_found` for searching; two allocators: desktops equal but for the gaps (`TwinD`) stay so, as texts over `Closed` clusters are segmented alike on both sides of any gap |
| C99 | `Overlaps`: the bytes of each file against a table of who wrote which byte (`writeAt_bytes`); invariants `Tended` (who can have written, the last save to open a file fills its text) and `Alone`; the findings by running the two saves |
| C100 | as C49 with CRLF added to the clusters (`orCrlf_apart`: CR starts a cluster after any closed state, CR LF ends in one); `windows_steps`; for the paste, positions after a newline do not depend on what precedes it (`locate_shift`) |
| C101 | `line_stream`: induction on the events that are left, with what is left of the line; a call that makes no lexeme is the call after the event (`next_of_build`). `lines_stream`: induction on the lines. The error is read off the stream (`streamFrom_error`) |
| C102 | As C101 without the contract: `line_run` keeps `left : Option Text`, and a slice that does not exist is a panic (`strSlice_not`). `Ends.functional`: tokens and ending are determined. `lineRun_reads`, `linesRun_reads`: what the tokens read as, where they are and how many they are, by the same inductions on the spec. `lineRun_fit`: the weaker contract excludes the panics, and without panics it is `stream` (`lineRun_stream`) |
| C103 | `line_calls`, `lines_calls`: the inductions of C102 with errors kept in the list of outcomes instead of ending it; `Answers` is the infinite run (a list, then a panic or a state that `next` maps to itself). `Answers.watch` counts calls. `lineCalls_run`, `linesCalls_run`: up to the first error it is `lineRun`, `linesRun`; `linesCalls_pieces`: lexemes are pieces of their lines |
| C104 | the lemmas of C62 (`Fine` is kept while the caller's code runs, `Fine.grow`), and for contents the cell-level refinement of `GapBuffer` operations; `replaceContent_text` |
| C105 | `Kept` (Proofs/Safe): operations do not touch the history; then storing, popping and closing groups by cases (`held_store`, `pop_held`), induction over the session |
| C106 | `Inv h L`: the count of each cell is its multiplicity in the list `L` of held pointers; each Rc operation keeps it (`Inv.new`, `.clone`, `.drop`, `.put`), each call of a buffer for every list of other holders (`Good`), simulation of `Buf.exec` (`exec_good`), then every step (`step_ok`) |
| C107 | as C103, with panics as a third outcome; the parser that is more careful is compared call by call |
| C108 | the loop with a counter is the loop and a count (`scanR_eq`), which is the place of the position among the clusters (`scanned_found`, `scanned_missing`); then each call on the zipper |
| C109 | both directions of the iterator are functions of the pieces between slashes (`nextBody_eq`, `backBody_eq`, `trimRight_eq`), by induction on the length of the string |
| C110 | each function with guards in terms of the plain one (`runOp_eq`, `runAll_eq`, `exec_eq`), groups by induction; the same cases again with cells (`Ends`, `exec_result`) |
| C111 | the relation of C68 between buffer and document of recipes, with counters (`ZSim.stepR`), one call at a time; bounds by adding those of the lookups (`Effort.AtMost`), steps of several edits by induction |
| C112 | each movement on a text is that on its line lengths (`move_walk`), then induction over the keys; routes by induction over each kind of key |
| C113 | one step on one row of the page (`indent_step`, `outdent_step`), induction over the named lines with `List.count`, then the grouping law of C16 |
| C114 | a reader for escapes and digits (`unescape_escape`, `value_digits`), then cancelling equal beginnings |
| C115 | deletion of a block leaves an empty row and insertion fills it (`block_remove`, `block_insert`), then the grouping law of C16 |
| C116 | laws of `streamFrom` (C101): lines one after the other from the state reached (`streamFrom_append`), line numbers shifted (`streamFrom_lower`); then C91 |
| C117 | each movement of any cursor on a text is that on its line lengths (`move_stray`); for a cursor off the page it leads back or changes nothing, by cases (`stray1_rescues`) |
| C118 | C30 for which hits there are; rows of the text are the segmented lines (C92), so reading within a line is taking from its clusters (`read_line`); `cut` for the clusters before the occurrence |
| C119 | case distinction on what the conversions return; for sessions by induction with `Sane` (C90), which every call keeps |

No property is "not applicable" and none is partial. Conditions of the theorems are in the notes of `MANIFEST.json`.

## 4. Trusted base

* Lean's kernel, and the axioms `propext`, `Classical.choice`, `Quot.sound` (per theorem: `AXIOMS.md`). No axioms are added; there is no `sorry`, no `native_decide`, no `bv_decide`.
* That the models say what the Rust code says. Each definition cites its lines; the differences below are deliberate. As evidence, the model passes the
  repository's own tests (`Verif/RepoTests`), among them those of private functions and of `gap_length`. The three tests with grammars of `syntect` are given the parser's events by hand.
* That the specifications say what the English says. They are in `Verif/Spec` and the statements in `Verif/Props`; helpers of the model do not occur in them
  except as the thing described.

Assumed of the environment, as parameters or in the definition of the model:

* **Segmentation**: the `Segmenter` laws (segments concatenate to the text; are non-empty; a segmentation cut at a boundary is the segmentation of the parts; newline and CRLF behaviour).
  They are proved for the UAX #29 automaton with any character table, and that automaton is proved to give exactly the boundaries of the rules of UAX #29 read literally (C77); that the crate implements these rules with the current Unicode tables is assumed.
* **Allocator**: `Vec::reserve`/`with_capacity` give at least what is asked for; how much more may depend on the number of the allocation, the size of the block and the request. C80 and C81 assume the growth
  policy of `Vec` on top (`Spec.Doubling`). The `unsafe set_len` in `gap_buffer.rs` exposes whatever bytes were
  there; the main model takes them as arbitrary but fixed, which is right because they are never used (C75). Running out of memory aborts and is not modelled; exceeding `isize::MAX` bytes is (C58, C59).
* **File system**: `File::create` truncates or creates one file in one step; `write` appends a prefix of what it is given, fails or is interrupted; nobody else writes
  to that file during the call (except in C99, where other saves do, each at the offset of its own handle); `fs::read` is one step. `File::create("")` fails. `canonicalize` is an arbitrary function that may change between calls.
* **Paths**: `file_name`, `extension`, `strip_prefix` and `==` of `std::path` on Unix are modelled (`Model/File` on components, `Model/PathStr` on strings), not taken from the source of std.
* **syntect**: `parse_line` and `ScopeStack::apply` are arbitrary functions with state that may fail (`Highlighter`), with offsets at
  character boundaries (C36, C37, C48, C70, C71, C83, C101) or any offsets (C72, C102, C103), and may panic (C107); `SyntaxSet` is an arbitrary lookup function (`Syntaxes`).
* **Threads**: `Rc` makes the types single-threaded; calls are sequential.

Not modelled: overflow of `Rc`'s counts and of `RefCell`'s reader count; format flags of `Debug` other than `#`;
chained causes and backtraces of `error_chain`.

## 5. Findings

Behaviour of the code that a user would not expect, each a theorem:

* C50: `delete_range` with an end that does not exist deletes text that undo does not bring back.
* C51: in files with CRLF line breaks every position on line 1 or later is out of bounds, and `move_down` never moves.
* C52: undoing the insertion of text with CRLF deletes everything after the cursor (when there is no bare newline).
* C53: edits in an open operation group do not set `modified()` and do not discard the redo history.
* C54: `insert` and `delete` without effect still add an undo step, discard the redo history and set `modified()`.
* C55: what an edit does can depend on the allocator when clusters merge. Undoing the insertion of an accent after a letter keeps the accent and deletes the character after it.
* C60: deleting to line `usize::MAX` panics in debug builds and corrupts the buffer in release builds.
* C73: buffer ids repeat after 2^64 additions (2^32 on 32-bit targets) in release builds.
* C61: the inclusive line range up to `usize::MAX` is inverted in release builds.
* C65: a cursor clone taken before `replace` or `reload` silently works on the discarded contents.
* C66: edits made by a change callback are not undoable.
* C69: undo can leave the cursor at a position that does not exist; what is typed there is silently lost.
* C70: after an error the token iterator is not at its end; further calls return tokens again, with text missing in between.
* C75: `set_len` is called on memory that is not initialised, against its contract, though the bytes are never used.
* C76: a buffer assigned to `current_buffer` of an empty workspace makes the next `add_buffer` or `open_buffer` panic; a buffer taken out of `current_buffer` is replaced by an empty one.
* C78: a line range cannot read the last line, and deleting it with one leaves an empty line and cannot be undone.
* C79: a file with two names (hard links) is opened as two buffers; saving one of them makes the other one out of date while it is reported as unmodified.
* C79: when a save fails after the file was truncated, an unmodified buffer is still reported as unmodified although its file is now empty.
* C82: the error `MissingScope` is never returned by anything.
* C84: editing through the public `cursor.data` bypasses the history: `modified()` stays false and a later `undo` can remove text that was never inserted.
* C90: an edit whose callback panics stays in the text but not in the history: `modified()` can be false for changed text, and a later `undo` can take back the wrong text; a group can be half undone.
* C97: `save` overwrites what other programs have written to the file since it was loaded, and `modified()` stays false for buffers whose file others have changed.
* C99: two saves of one file at the same time can both succeed and leave a mixture of the texts, which may not even be UTF-8; both buffers count as unmodified.
* C100: undoing a paste that contains CRLF also removes text after it: for each CRLF one line more.
* C105: nothing limits or frees the memory kept for undo; `reload` is documented to discard the history but keeps it, together with the contents before and after.
* C110: an `undo` that panics because the caller holds a guard has already moved in the history; the step counts as undone, and `redo` makes it a second time. An open group is lost.
* C108: every lookup of a position decodes all of the text before the gap, so typing at the end of a text takes quadratic time although the gap does not move.
* C111: a keystroke at the end of a text (insert, then `move_right`) decodes all of it twice; `delete` up to seven times; going up or down to a shorter line three times; `replace` makes the old text as a string twice.
* C112: `move_left` at the start of a line does not change the column that up and down go for, while `move_to_start_of_line` does; `move_to_end_of_line` changes it on an empty line, but not if that is the last one.
* C117: after an undo that took away the lines under it, a cursor two lines or more below the text is stuck: up, down, left, right, start of line and end of line do nothing, and what is typed is lost (C69). The same two columns after the end of a text of one line, for the arrow keys. `move_to_end_of_line` does not bring a cursor back that is on an empty last line.
* C118: `search` gives byte offsets, but its results are `Position`s, which count clusters: in a line with multi-byte characters before the occurrence, moving to a result goes too far to the right or nowhere, and replacing there changes other text.
* C113 with C50: removing n clusters from the start of a line with `delete_range` is safe only if the line has n of them; on a shorter line the call deletes the line with its newline (the last line becomes empty), and undo does not bring it back (`C113_short`).
* C21: `save` is not atomic; a crash can leave a proper prefix of the contents.
* C30, C34, C86: `search` and `Distance::of_str` count bytes, while positions count grapheme clusters; replacing what was found after `é` on the same line changes another place.

## 6. Testing the theorems against wrong programs

`seeded/seeds.py` holds wrong programs written by hand; `tools/mutate.py` also makes mechanical ones. Two ways of testing:

* `tools/seed.py` applies a seed in a scratch copy and rebuilds everything, replacing proofs that break by `sorry`; a theorem counts as failed if it then depends on `sorryAx`.
  This over-approximates: a proof may break although the statement is still true.
* `tools/mutate.py` rebuilds only models, specifications and the executable forms `o_C…` (`Verif/Oracle`) and evaluates those on samples.
  `Verif/Oracle/Sound*.lean` prove, from the statements alone, that each `o_C…` is `true` on all inputs; so one that evaluates to `false` shows that its theorem is false of
  the wrong program. A survivor is looked at: it is equivalent, or a theorem or the samples are too weak.

`seeded/LOG.jsonl` has one line per wrong program with the theorems that are false of it.
