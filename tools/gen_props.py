# Generates properties.jsonl (kept as a script so the list stays consistent).
import json
P=[]
def p(title, statement, quantifier, why, anchors):
    P.append(dict(id="C%02d"%(len(P)+1), title=title, statement=statement, quantifier=quantifier, why_tests_cant=why, anchors=anchors))

GB="src/buffer/gap_buffer.rs"
p("Gap buffer operations never panic",
  "Starting from GapBuffer::new on any string, no sequence of insert / delete / read / in_bounds / to_string calls, with any strings, positions and ranges, panics (no out-of-range slice or index, no arithmetic underflow), whatever spare capacity and stale bytes the allocator hands back.",
  "all initial strings, all finite operation sequences, all positions/ranges (in or out of bounds), all allocator behaviours, every UAX#29-conformant grapheme segmentation",
  "the panics depend on where earlier operations left the gap, on the capacity chosen by the allocator and on multi-byte/multi-scalar clusters around it; unit tests fix one history and one allocator",
  [GB+": GapBuffer::{new,insert,read,delete,in_bounds,find_offset,move_gap,write_to_gap}, Display"])
p("Contents are always exactly encoded text; gap bytes never leak",
  "After any sequence of operations the bytes outside the gap are the UTF-8 encoding of a Unicode string on each side of the gap, so to_string/read never contain a byte of the gap (uninitialised memory, zeroes or deleted data) and never contain a replacement character that the user did not insert.",
  "all operation sequences, all allocator contents",
  "the lossy decoder hides corruption silently, and gap contents are unspecified memory; a test that passes once says nothing about other histories",
  [GB+": GapBuffer::{new,insert,delete,move_gap}, Display"])
p("insert splices the text at the named position",
  "If a position exists in the text (line l, after o grapheme clusters), GapBuffer::insert puts the given string exactly there: the new contents are the text before the position, the string, the text after it, independent of where the gap was and of reallocation.",
  "all texts, strings, positions, gap locations, allocator behaviours with the gap on a cluster boundary of the text",
  "depends on gap location, reallocation and cluster widths",
  [GB+": GapBuffer::insert"])
p("Out-of-bounds insert leaves the text unchanged",
  "If the position does not exist in the text, GapBuffer::insert leaves to_string unchanged even when it reallocates first.",
  "all texts, strings, out-of-bounds positions, gap locations, allocator behaviours",
  "reallocation happens before the bounds check; only some gap/capacity combinations exercise it",
  [GB+": GapBuffer::insert"])
p("delete removes exactly the range",
  "If both ends of the range exist, GapBuffer::delete removes exactly the text between them and nothing else.",
  "all texts, ranges with both ends in bounds, gap locations",
  "depends on the relation between the gap and both ends of the range",
  [GB+": GapBuffer::delete"])
p("delete with an out-of-range end clips, with an out-of-range start does nothing",
  "If the start of the range is out of bounds nothing is deleted. If only the end is out of bounds, everything from the start up to the beginning of the line after the end's line is removed, or to the end of the text if there is no such line.",
  "all texts and ranges", "case split over every range against every text",
  [GB+": GapBuffer::delete"])
p("read returns exactly the range, or None",
  "GapBuffer::read (and Buffer::read) returns the text strictly between the two positions when both exist, and None exactly when either does not.",
  "all texts, ranges, gap locations", "the gap may be before, inside, at either end of, or after the range",
  [GB+": GapBuffer::read", "src/buffer/mod.rs: Buffer::read"])
p("in_bounds holds exactly for positions of the text",
  "in_bounds(p) is true exactly when p.line is the number of newline clusters before some cluster boundary of the text and p.offset the number of clusters since the last newline there; in text without carriage returns that is: p.line <= number of newlines and p.offset <= number of clusters on that line.",
  "all texts, positions, gap locations", "infinite domain",
  [GB+": GapBuffer::in_bounds, find_offset"])
p("Gap location and allocator are unobservable",
  "Two gap buffers holding the same text answer to_string, read and in_bounds identically after any identical sequence of operations none of which fuses clusters, however their gaps, capacities and stale bytes differ.",
  "all pairs of internal states with equal text, all non-fusing operation sequences, all allocators",
  "needs comparison over all pairs of hidden states",
  [GB+": GapBuffer"])
p("Distinct positions name distinct places, in order",
  "Earlier positions lie strictly earlier in the text: for in-bounds p < q the text before p is a strict prefix of the text before q, and each place at a cluster boundary has exactly one position.",
  "all texts, pairs of positions", "infinite domain",
  [GB+": find_offset", "src/buffer/position.rs: PartialOrd"])
p("Reading back an insert returns what was inserted",
  "After inserting s at an in-bounds p without merging clusters, reading from p to p advanced by s returns s, and the positions after it still name the old following text.",
  "all texts, strings without CRLF, positions, no cluster fusion", "infinite domain",
  [GB+": insert, read"])
p("Undo reverses any single edit",
  "After insert, delete, delete_range (in-bounds end) or replace on a Buffer, where an insertion contains no CRLF and no clusters are merged (C50, C52, C55 show the conditions are needed; C49 that ordinary text meets them), one undo restores the previous contents exactly, wherever the gap has moved meanwhile.",
  "all buffers reachable by clean histories, all edits", "depends on content shape (newlines, clusters) and on gap state",
  ["src/buffer/mod.rs: Buffer::undo", "src/buffer/operation/insert.rs: Insert::reverse", "src/buffer/operation/delete.rs: Delete::reverse", "src/buffer/operation/replace.rs: Replace::reverse"])
p("Undo history is a linear snapshot history",
  "For any interleaving of clean edits (an insertion merges no grapheme clusters and contains no CRLF; a deletion merges none and, if it removes anything, its end exists; redo is not called with pending group edits), cursor moves, undo, redo and operation groups, Buffer::data always equals the text an abstract snapshot history (stack of past texts, present, stack of future texts) would show; undoing everything returns the initial text and redoing everything returns the last one. Outside a group, n edits with movements and saves between them are n steps: n undos bring back the contents before, n redos those after.",
  "all clean command sequences of any length", "unbounded interleavings",
  ["src/buffer/mod.rs: Buffer::{undo,redo}", "src/buffer/operation/history.rs: History", "src/buffer/operation/group.rs"])
p("redo inverts undo",
  "If there is something to undo in the history (no open group), undo followed by redo gives back the same contents, and redo followed by undo as well.",
  "all reachable buffers", "unbounded histories", ["src/buffer/mod.rs: Buffer::{undo,redo}", "src/buffer/operation/history.rs"])
p("A new edit discards the redo history",
  "After an edit made outside an operation group, redo does nothing. (Inside an open group this fails until the group is closed.)",
  "all reachable buffers", "unbounded histories", ["src/buffer/operation/history.rs: History::add"])
p("Operation groups are atomic",
  "All clean edits (see C13) between start_operation_group and end_operation_group are undone by one undo and re-applied by one redo; an empty group leaves no trace; nested starts do not split the group.",
  "all edit sequences inside a group", "unbounded group contents", ["src/buffer/operation/group.rs"])
p("Undo of an open group",
  "Undo while a group with clean edits (see C13) is open reverts exactly the edits of the open group and closes it; with an empty open group it drops the group and undoes the previous operation. The reverted open group is not redoable.",
  "all reachable buffers with an open group", "unbounded group contents", ["src/buffer/mod.rs: Buffer::undo", "src/buffer/operation/group.rs"])
p("modified() is sound",
  "Whenever modified() returns false and no operation group is open, the contents are exactly those last read from or written to disk, for any history of clean edits (see C13), undo, redo, groups, save and reload in which no save/reload happens inside an open group.",
  "all reachable buffers", "unbounded histories that move back and forth across the saved point", ["src/buffer/mod.rs: modified, save, reload, from_file", "src/buffer/operation/history.rs: mark, at_mark, add"])
p("modified() is exact across undo/redo",
  "After a save, undoing k operations and redoing k operations makes modified() false again; so does making any n edits, clean or not, and undoing all n of them, but not fewer; any edit outside a group makes it true.",
  "all reachable buffers, all k", "unbounded", ["src/buffer/operation/history.rs"])
p("save writes the contents or reports an error",
  "If save returns Ok the file holds exactly the UTF-8 bytes of data() and modified() is false; if it returns Err neither the contents nor the undo history nor the modified flag change. A buffer without a path always fails to save.",
  "all buffers, all file system outcomes", "I/O failures at every point", ["src/buffer/mod.rs: Buffer::save"])
p("Crash points of save",
  "At every crash point of save the file at the path holds either its old bytes or a prefix of the new bytes; no other file changes. (Save is not atomic: a crash can leave a proper prefix.)",
  "all crash points, all texts", "crash points", ["src/buffer/mod.rs: Buffer::save"])
p("Save / load round trip",
  "Loading a file that save wrote gives a buffer with the same contents, unmodified, cursor at (0,0); loading then saving reproduces the file byte for byte; a file that is not valid UTF-8 is refused, never altered.",
  "all texts, all byte strings", "infinite domain", ["src/buffer/mod.rs: Buffer::{from_file,save}"])
p("replace swaps the whole contents and keeps the cursor in bounds",
  "After replace(c) the contents are c; the cursor keeps its position if it exists in c, else moves to the start of its line if that exists, else to (0,0); if c equals the current contents nothing changes, not even the history.",
  "all buffers, all contents", "infinite domain", ["src/buffer/operation/replace.rs"])
p("reload",
  "reload makes the contents equal the file and modified() false (outside groups); it fails without any change when the buffer has no path or the file is unreadable; one undo after a changing reload brings the discarded contents back.",
  "all buffers and files", "infinite domain", ["src/buffer/mod.rs: Buffer::reload"])
p("Change callback covers every change",
  "Whenever an API call (a clean one, see C13) changes the contents and a change callback is set, the callback is invoked, and the text before the earliest reported position is unchanged.",
  "all clean commands on all reachable buffers incl. undo/redo of groups", "unbounded histories", ["src/buffer/operation/{insert,delete,replace}.rs", "src/buffer/mod.rs: change_callback"])
p("move_to is bounds-checked",
  "Cursor::move_to succeeds exactly when the position is in bounds, moves exactly there, and otherwise leaves the cursor untouched. Every cursor movement leaves an in-bounds cursor in bounds.",
  "all texts, positions, movement sequences", "infinite domain", ["src/buffer/cursor.rs"])
p("Vertical moves keep the column",
  "In text without carriage returns, any sequence of move_up/move_down visits columns min(sticky, length of line) and moves exactly one line unless at the first/last line; moving back to the original line returns to the original column; the same for a cursor made by Cursor::new at a place of the text.",
  "all texts, cursors, sequences of vertical moves", "unbounded sequences", ["src/buffer/cursor.rs: move_up, move_down"])
p("Horizontal moves",
  "move_left/move_right change the offset by one within the current line and do nothing at its ends; move_to_start_of_line and move_to_end_of_line go to offset 0 and to the line length (text without carriage returns).",
  "all texts and in-bounds cursors", "infinite domain", ["src/buffer/cursor.rs"])
p("First and last line moves",
  "In text without carriage returns, move_to_first_line / move_to_last_line put the cursor on line 0 / the last line at column min(sticky, length of that line).",
  "all texts and cursors", "infinite domain", ["src/buffer/cursor.rs: move_to_first_line, move_to_last_line"])
p("search is sound and complete",
  "search(needle) returns, in order and without duplicates, exactly the pairs (line, byte offset in the line) at which needle occurs inside a single line; for text whose clusters are single bytes these are in-bounds positions, and reading needle's length from them gives needle.",
  "all texts, needles", "infinite domain", ["src/buffer/mod.rs: Buffer::search"])
p("line_count agrees with positions",
  "line_count is the number of newline characters plus one; in text without carriage returns, (l, 0) is in bounds exactly when l < line_count.",
  "all texts", "infinite domain", ["src/buffer/mod.rs: line_count"])
p("Positions are totally ordered; ranges are normalised",
  "Position comparison is a total lexicographic order consistent with equality; Range::new returns a range with start <= end holding the same two positions whichever order they are given in; includes(p) iff start <= p < end.",
  "all positions", "infinite domain", ["src/buffer/position.rs", "src/buffer/range.rs"])
p("Line ranges",
  "LineRange::new normalises its bounds, includes(l) iff start <= l < end, to_range / to_inclusive_range cover exactly the positions on lines start..end-1 / start..end.",
  "all lines", "infinite domain", ["src/buffer/line_range.rs"])
p("Distances compose",
  "Position + Distance never moves backwards, += agrees with +, and advancing by the distance of a++b equals advancing by a then by b; for single-byte clusters, p + Distance::of_str(s) is where text inserted at p ends.",
  "all positions and strings", "infinite domain", ["src/buffer/distance.rs", "src/buffer/position.rs"])
p("LineIterator partitions the data",
  "LineIterator yields lines numbered 0,1,2,... whose concatenation is the data; every line but the last ends with its only newline, the last contains none; there are newline-count + 1 of them, then None forever; it never panics.",
  "all strings", "infinite domain", ["src/util/line_iterator.rs"])
p("Tokens are lossless",
  "For any parser whose event offsets are character boundaries of the line, concatenating all tokens (a newline for Newline) gives back exactly the data, and the iterator never panics; if the parser or a scope operation fails, the tokens before the failure are a prefix of the data and the error is recorded.",
  "all strings, all parsers and scope semantics meeting the contract", "the parser is arbitrary", ["src/buffer/token/token_iterator.rs"])
p("Token positions",
  "Each lexeme's position has the line number equal to the Newline tokens before it and the offset equal to the grapheme counts of the lexemes before it on that line; when lexemes start on cluster boundaries of CR-free data this is the position of the lexeme in the buffer.",
  "all strings and parsers", "the parser is arbitrary", ["src/buffer/token/token_iterator.rs"])
p("Workspace is a list of buffers with a selection",
  "Every sequence of add_buffer, open_buffer, close_current_buffer, next_buffer, previous_buffer and edits of the current buffer behaves like a plain list of buffers with a selected index: add inserts after the selection and selects it, close removes the selection and selects its predecessor (or the new first), next/previous step cyclically. No such sequence panics.",
  "all operation sequences", "unbounded sequences; the implementation swaps the selected buffer out of the list", ["src/workspace.rs"])
p("Buffers keep their edits when switching",
  "Selecting other buffers and coming back returns the current buffer unchanged, and operations never change a buffer that is not selected.",
  "all sequences", "unbounded sequences", ["src/workspace.rs: select_buffer"])
p("next and previous are inverse cycles",
  "next_buffer then previous_buffer (and vice versa) restores the workspace; with n buffers, n next_buffer calls restore it and every buffer gets visited.",
  "all workspaces", "unbounded", ["src/workspace.rs: next_buffer, previous_buffer"])
p("Buffer ids are unique and never reused",
  "In every reachable workspace all buffers added to it have pairwise distinct ids, and a closed buffer's id is never given out again.",
  "all operation sequences", "unbounded sequences", ["src/workspace.rs: add_buffer"])
p("open_buffer never opens a duplicate",
  "If buffers are added only by open_buffer, no two open buffers ever have the same canonical path, whatever happens to the file system between calls; opening an already open path selects that buffer and changes nothing else; a failed open leaves the workspace unchanged.",
  "all sequences, all file systems", "unbounded sequences, arbitrary file system changes", ["src/workspace.rs: open_buffer, select_buffer_by_path"])
p("buffer_paths and current_buffer_path agree",
  "buffer_paths has one entry per buffer in order, its entry at current_buffer_index is current_buffer_path, and each entry is the buffer path relative to the workspace path when it is below it, else the path itself. A new workspace has the canonical form of the path it was given, and no buffers.",
  "all workspaces", "unbounded", ["src/workspace.rs: new, buffer_paths, current_buffer_path, current_buffer_index"])
p("Every workspace buffer has a syntax",
  "After add_buffer/open_buffer the current buffer has a syntax definition (kept if it had one, else found by extension, else by file name when there is no extension, else plain text), so current_buffer_tokens fails only in an empty workspace.",
  "all buffers, all syntax sets", "unbounded", ["src/workspace.rs: add_buffer, update_current_syntax, current_buffer_tokens", "src/buffer/mod.rs: file_extension, file_name"])
p("Unconditional safety of edits",
  "Even when an edit fuses or splits grapheme clusters, insert either leaves the text unchanged or inserts the string contiguously at one character boundary, and delete removes at most one contiguous run of characters.",
  "all histories including cluster-fusing ones", "unbounded histories, Unicode", [GB+": insert, delete"])
p("Cursor survives edits",
  "An in-bounds cursor stays in bounds after insert, delete at the cursor (clean ones, see C13), replace and reload. (delete_range and undo/redo may leave it out of bounds.)",
  "all clean states", "unbounded", ["src/buffer/operation/*.rs", "src/buffer/cursor.rs"])
p("Buffer calls never panic",
  "No sequence of buffer calls (insert, delete, delete_range, replace, undo, redo, groups, movements, unchecked cursor assignment, reload) panics, with any arguments: positions out of bounds, ranges reversed, strings that fuse grapheme clusters, CRLF, redo inside a group; the contents can always be read afterwards.",
  "all call sequences on all buffers, no cleanness assumption", "unbounded histories; panics depend on stored operations meeting a text they were not made for", ["src/buffer/mod.rs", "src/buffer/operation/*.rs", "src/buffer/cursor.rs"])
p("Token scopes",
  "The scope stack of each lexeme is the result of applying, in order, all scope operations of the lines before it and those of its own line at or before its first byte, starting from the empty stack; operations after it never leak into it.",
  "all strings, all parsers with boundary offsets, all scope semantics", "the iterator interleaves lexeme creation and scope changes; depends on coinciding offsets and line ends", ["src/buffer/token/token_iterator.rs: build_next_token"])
p("Ordinary text needs no precautions",
  "Text made of ordinary clusters (letters with marks, newlines, tabs, emoji sequences, flags, Hangul syllables, Indic conjuncts; no CR, no stray marks) never merges clusters, so: any sequence of insert/delete/read/in_bounds on a gap buffer with such strings is observably the same as on a plain text, and any session of insert, delete, replace, undo, redo, movements, cursor assignments, saves and reloads follows the snapshot history exactly, can be undone to the start, and reports unmodified only when the contents are those on disk.",
  "all Unicode tables, all allocators, all ordinary texts and call sequences of any length", "unbounded histories over all of Unicode", [GB, "src/buffer/mod.rs", "src/buffer/operation/*.rs"])
p("A clipped delete_range cannot be undone",
  "When the end of the range given to delete_range does not exist, text is removed but undo does not restore it (the operation remembers no text), and redo afterwards deletes the range once more from what is left; unless the range starts at the end of the text something is really lost.",
  "all reachable buffers without open group, all ranges with missing end", "a wrong state only visible after undo of an out-of-bounds deletion", ["src/buffer/operation/delete.rs: Delete::run, Delete::reverse"])
p("CRLF line breaks are not lines for positions",
  "In a buffer all of whose line breaks are CRLF, in_bounds is false for every position on line 1 or later (line 0 covers the whole text), although line_count counts every break; move_up and move_down never move, move_to_start_of_line goes to the start of the text, move_to_end_of_line to the end of the first line wherever the cursor is, move_to_first_line and move_to_last_line to the remembered column, or to the end of the first line and of the text if that is before it.",
  "all reachable buffers with such text, all positions and movements", "unbounded texts; in_bounds and line_count disagree only on CRLF", [GB+": find_offset", "src/buffer/mod.rs: line_count", "src/buffer/cursor.rs: move_down"])
p("Undo of a CRLF insertion destroys following text",
  "If the buffer has no bare newline and a string with CRLF breaks is inserted without merging clusters, then undo removes not only the string but all text after the cursor.",
  "all reachable buffers without open group, all cursors and such strings", "needs the interplay of insert's reverse range with CRLF clusters", ["src/buffer/operation/insert.rs: Insert::reverse", GB+": delete"])
p("Pending edits of an open group are invisible to the history",
  "An edit made while an operation group is open changes neither the undo/redo stacks nor the mark, so it does not discard the redo history and modified() keeps its value until the group is closed.",
  "all states, all edits", "state space; only visible in particular interleavings", ["src/buffer/operation/*.rs", "src/buffer/mod.rs: modified"])
p("Edits without effect still count as edits",
  "delete with nothing after the cursor and insert with an out-of-bounds cursor leave the contents unchanged but add an undo step, discard the redo history and make modified() true.",
  "all reachable buffers without open group", "unbounded", ["src/buffer/operation/insert.rs", "src/buffer/operation/delete.rs"])
p("Cluster-merging edits expose the gap",
  "C09 and C12 are false without their condition that no clusters merge. If an inserted string merges with a mark that follows it, a second insertion on that line goes to one of two different places, depending only on how much memory the allocator gave. If an inserted mark merges with the cluster before it, one undo leaves the mark in place and removes the cluster after the cursor instead (a newline, if that is next); with the rules of UAX #29 and any Unicode table that happens for every character of class Extend inserted after a letter of an ordinary text.",
  "all segmentations, all such texts and marks; all reachable buffers; all Unicode tables", "depends on allocator behaviour; tests use ASCII", [GB+": find_offset, insert", "src/buffer/operation/insert.rs: reverse"])
p("Undo bookkeeping is independent of the text",
  "In every state, also after cluster-merging or out-of-bounds edits, each call changes the number of undoable steps, redoable steps, the saved mark and the size of the open group exactly as a four-number machine that knows nothing of the text (except whether a replacement equals the current contents), and modified() is exactly 'mark differs from the number of undoable steps'.",
  "all states, all calls", "unbounded histories, no cleanness assumption", ["src/buffer/operation/history.rs", "src/buffer/operation/group.rs", "src/buffer/mod.rs: undo, redo, modified"])
p("A new buffer is modified until it is saved",
  "A buffer made by Buffer::new() reports modified() after every sequence of calls that contains no save or reload, including the empty sequence and sequences in which everything has been undone.",
  "all call sequences", "unbounded histories", ["src/buffer/mod.rs: Default, modified"])
p("Gap buffer arithmetic never overflows",
  "With a usize of any width (2 bits or more, so 16, 32 and 64 bits), every session with a gap buffer whose deletions do not end on line usize::MAX gives the same results in debug builds (overflow panics) and release builds (overflow wraps), namely those of unbounded arithmetic; the only other outcome, in both builds alike, is the capacity-overflow panic of Vec beyond isize::MAX bytes, which happens exactly when the vector the session would end with is longer than that.",
  "all texts, all call sequences, all allocators, all widths of usize, both overflow modes", "needs lines or buffers near usize::MAX; release builds hide overflows", [GB])
p("Buffer arithmetic never overflows",
  "If positions passed by the caller have coordinates up to isize::MAX, every session with a buffer (edits, undo, redo, groups, replace, reload, movements, unchecked cursor assignment, line_count) gives the same results in debug and release builds, namely those of unbounded arithmetic; or both hit the capacity limit of Vec, which happens exactly when some vector on the way (after a call, or after one of the edits an undo or redo goes through) would be longer than isize::MAX bytes.",
  "all contents, all call sequences, all allocators, all widths of usize, both overflow modes", "values near isize::MAX cannot be produced in tests", ["src/buffer/mod.rs", "src/buffer/cursor.rs", "src/buffer/operation/*.rs", GB])
p("Deleting to line usize::MAX",
  "delete with a range ending on line usize::MAX whose start exists panics in debug builds; in release builds it deletes nothing when the start is the beginning, and otherwise corrupts the buffer: the bytes of the whole vector reappear after the text before the start (with an empty gap, x is followed by the whole text again).",
  "all buffers, all existing starts", "only in release builds and only for one line number", [GB+": delete"])
p("Position arithmetic at the limits",
  "Position + Distance and LineRange::to_inclusive_range are exact in both builds whenever the exact result fits into usize, of any width, and panic in debug builds otherwise; in release builds the inclusive range of lines s..=usize::MAX is the range of everything before line s.",
  "all positions, distances and line ranges, all widths of usize", "only near usize::MAX", ["src/buffer/position.rs", "src/buffer/line_range.rs: to_inclusive_range"])
p("Re-entrant change callbacks are safe",
  "The change callback may reach the gap buffer through a pointer cloned from Cursor::data and read or edit it while a buffer call is in progress: no sequence of buffer calls then panics (no RefCell is borrowed twice), because no guard is alive when the callback runs. A guard held by the caller across a call does panic: any guard for insertions, a RefMut also for reading, deleting, replacing and moving; with Ref guards only, reading and moving work as usual.",
  "all call sequences, all callbacks that do not themselves panic, keep guards or corrupt gap buffers", "interleavings of callbacks with live borrow guards", ["src/buffer/mod.rs: change_callback", "src/buffer/cursor.rs: data", "src/buffer/operation/*.rs"])
p("A buffer and its cursor share one gap buffer; callbacks see the finished edit",
  "After every call sequence the buffer and its cursor point to the same gap buffer (also after replace, reload and their undo, which allocate a new one), it behaves like a gap buffer owned by value, the callback has been called with exactly the positions of the edits in order, its last call during an API call sees the final contents, and if it is not called nothing has changed.",
  "all call sequences, all callbacks that only look", "aliasing", ["src/buffer/mod.rs", "src/buffer/operation/replace.rs: replace_content", "src/buffer/cursor.rs"])
p("Buffers do not interfere",
  "Any number of buffers, called in any order, behave like independent values: a call on one never changes the contents, cursor, history or callback of another, and no two ever share a gap buffer.",
  "all numbers of buffers, all interleavings of calls", "aliasing, unbounded interleavings", ["src/buffer/mod.rs", "src/buffer/operation/replace.rs: replace_content"])
p("Clones of the cursor follow edits but not replacements",
  "A clone of the cursor keeps moving in the current contents after insertions, deletions, groups and movements; after a replace that changes the contents it is stale for good: it is checked against the discarded contents whatever is done with the buffer later.",
  "all call sequences", "aliasing; wrong only after replace", ["src/buffer/cursor.rs: data, move_to", "src/buffer/operation/replace.rs: replace_content"])
p("Edits by callbacks are not undone",
  "Edits that a change callback makes through the shared pointer are not in the undo history. Whatever the callback of an insertion leaves in the buffer, undo takes out of that the range that the inserted text had, by position. So if the callback puts a string without newlines before an insertion at the start of an ordinary text, undo takes the first clusters of the text, as many as were inserted, and never restores the contents.",
  "all buffers, all callbacks that return (first part); all ordinary texts, insertions and strings of the callback without newlines (second part)", "needs a re-entrant callback, and every text it might leave", ["src/buffer/mod.rs: undo", "src/buffer/operation/insert.rs"])
p("The gap buffer is two strings",
  "For every text and every sequence of insert, delete, read, in_bounds and to_string, whatever the strings do to cluster boundaries, all results are those of two strings before and after the gap, each segmented on its own, with the gap where the last edit left it; a position exists iff it counts clusters of the first string and then of the second. The block never shrinks and grows only for an insertion longer than the room left.",
  "all texts, all allocators, all call sequences, no condition on clusters", "the meaning of a position depends on the hidden gap; needs merging clusters and particular capacities", [GB])
p("Exact behaviour of a buffer under every session",
  "Whatever is called in whatever order, contents, cursor, sticky column, callback log, modified(), the numbers of undo and redo steps and the existence of positions are those of a document that remembers what was inserted and removed where, and replays or reverts these recipes on whatever the text is by then; in particular no call panics.",
  "all texts, all allocators, all call sequences, no condition at all", "unbounded sessions, including those where undo meets a text it was not made for", ["src/buffer/mod.rs", "src/buffer/operation/*.rs", "src/buffer/cursor.rs", GB])
p("Edits leave the cursor where it was",
  "In sessions without replace and reload no edit, undo, redo or group call changes the cursor; so a cursor can be left at a position that no longer exists. There, any number of insertions leaves contents and cursor as they are, while each adds an undo step and a callback report.",
  "all sessions, all strings", "needs a session that strands the cursor; the lost text is not reported", ["src/buffer/mod.rs: insert, delete, undo, redo", "src/buffer/operation/*.rs"])
p("Token streams are short and end for good",
  "Iterating tokens ends after at most as many tokens as the text has bytes plus newlines; empty lexemes occur only directly before a newline token (or before an error); after a normal end next keeps returning None; no number of calls panics, also not after an error. After an error, however, the same iterator can return tokens again, and text is left out.",
  "all strings, all parsers with boundary offsets, all scope semantics, any number of calls", "termination over all parsers; states after errors", ["src/buffer/token/token_iterator.rs", "src/util/line_iterator.rs"])
p("One scope per lexeme",
  "The scope stack of a lexeme is right for every one of its bytes: for each byte it is the result of all events of the lines before and of those of its line up to that byte; no scope change falls inside a lexeme.",
  "all strings, all parsers with boundary offsets, all scope semantics, every byte of every lexeme", "depends on coinciding and unsorted offsets and line ends", ["src/buffer/token/token_iterator.rs: build_next_token"])
p("Iterator arithmetic never overflows",
  "With a usize of any width, line and token iterators over any text of at most isize::MAX bytes give the same results in debug builds (overflow panics) and release builds (overflow wraps), namely those of unbounded arithmetic, however often next is called, also after an error, and whatever offsets the parser reports (where an offset makes one of them panic, it makes all of them panic).",
  "all texts that fit in memory, all parsers whatever offsets they report, any number of calls, all widths of usize, both overflow modes", "texts near isize::MAX bytes cannot be produced in tests", ["src/util/line_iterator.rs", "src/buffer/token/token_iterator.rs"])
p("Workspace arithmetic overflows only after usize::MAX buffers",
  "A program that adds fewer than 2^w buffers to a workspace, where usize has w bits, gets the same results in debug and release builds, namely those of unbounded arithmetic. The bound is exact: at the 2^w-th addition debug builds panic, and in release builds the next buffer gets an id that an open buffer still has.",
  "all call sequences, all file systems, all widths of usize, both overflow modes", "needs 2^64 calls (2^32 on 32-bit targets)", ["src/workspace.rs: add_buffer, open_buffer, next_buffer, previous_buffer"])
p("A whole program sees a list of documents",
  "Whatever a program does with a workspace and its current buffer, in whatever order - adding buffers, opening, closing, switching, updating syntaxes, editing, moving, undoing, saving, reassigning path and syntax - no call panics, all calls succeed or fail as for a list of documents with a selection, and for every open buffer contents, cursor, callback log, modified(), undo and redo depth, existing positions, id, path and syntax are those of its document, as are current_buffer_index, buffer_paths and the text and syntax handed to the token set. Every buffer in a workspace results from calls on a fresh buffer, so every other property of buffers holds for it.",
  "all programs, all file systems, all allocators, all texts, no condition at all", "unbounded interleavings of calls on several buffers and on the workspace", ["src/workspace.rs", "src/buffer/mod.rs", "src/buffer/operation/*.rs", "src/buffer/cursor.rs", GB])
p("Uninitialised memory is never used",
  "GapBuffer::new and insert call set_len over spare capacity nobody wrote. Whatever is called afterwards, no operation ever looks at such a byte: run on memory in which using an unwritten byte is a fault, every call sequence ends without fault and gives the same results, and every byte outside the gap has been written. So what the allocator leaves in memory cannot be observed.",
  "all texts, all allocators, all call sequences", "undefined behaviour usually goes unnoticed; depends on history and capacities", [GB+": GapBuffer::{new,insert,delete,read,find_offset,move_gap,write_to_gap}, Display"])
p("Assigning the public fields of a workspace",
  "A program may also assign current_buffer, path and syntax_set of a workspace. Its results are those of a list of buffers with a selection, in which a buffer taken out leaves an empty pathless one in its place (seen only on coming back), and a buffer put into an empty workspace is not part of the list. A program that only takes buffers out never panics; adding a buffer after one was put into an empty workspace always panics.",
  "all programs of calls and assignments, all file systems", "unbounded interleavings of assignments and calls", ["src/workspace.rs"])
p("Grapheme clusters follow the rules of UAX #29",
  "The cluster boundaries on which positions are counted are exactly those given by the rules GB1 to GB999 of UAX #29 (extended, with GB9c), read literally as conditions on the text before and after a place: no boundary inside a cluster, one between any two, and the clusters joined are the text. There is only one such way of cutting a text.",
  "all strings, all assignments of property classes to characters", "needs strings of every shape of the rules, of unbounded length (regional indicators, emoji and conjunct sequences)", ["Cargo.toml: unicode-segmentation", GB+": graphemes(true)", "src/buffer/cursor.rs: graphemes(true)", "src/buffer/distance.rs"])
p("Ranges of lines",
  "In text without CR, reading a line range gives exactly its lines with their newlines, and None if there is no line after it - so no line range ever reads the last line. Deleting a line range removes exactly its lines; at the end of the text an empty last line remains. Undoing such a deletion restores the text if there is a line after the range; otherwise the lines are lost.",
  "all texts, all line numbers, all positions of the gap, all histories", "depends on what lies after the range and on the hidden gap", ["src/buffer/line_range.rs", GB+": read, delete", "src/buffer/operation/delete.rs"])
p("What is unmodified is on the disk",
  "A program opens files by any paths (links included), edits (joining no character of an edit with the text around it, as in C12) and undoes, switches between buffers, saves, saves under other names, reloads and closes; nobody else changes the files. Then nothing panics; at every moment every open buffer, current or not, that is not reported as modified and has no edits pending in an open group has a path, and the file it leads to holds exactly its contents; no two open buffers share a file; and closing an unmodified buffer and opening its path again gives the same contents. Saves that emptied the file must have succeeded: a failed save of an unmodified buffer leaves an empty file and the buffer is still reported as unmodified. Without hard links, that is: two names of one file give two buffers, and saving one leaves the other reported as unmodified although its file now holds something else.",
  "all such programs, all directory trees without hard links, all contents of the disk, all splits of the writes, all saves that fail before the file is touched", "unbounded interleavings of edits, undo, saves and switches over several files", ["src/workspace.rs", "src/buffer/mod.rs: from_file, save, modified, reload", "src/buffer/operation/history.rs"])
p("Memory is proportional to the text",
  "With the growth policy of Vec (a full block is replaced by one of twice its size, or what is needed, or 8 bytes), after any sequence of calls the block is the one first allocated or at most twice as large as the largest text (and inserted string) there has been; after r reallocations it has at least 2^(r+2) bytes and 2^r times its first size, so reallocations are logarithmically few, however many calls are made.",
  "all texts, all call sequences, also refused insertions", "unbounded histories; needs the capacity after each of them", [GB+": new, insert", GB+": move_gap"])
p("Typing is cheap",
  "A call copies exactly the bytes it inserts and those between the gap and the place of the edit, and when the string does not fit also those after the gap and the block. So it copies at most the bytes of the text and those it inserts; when the block is replaced, at most three times the block and the inserted bytes. Strings inserted one after the other, each where the last one ended, copy in total at most their own bytes and three times the growth of the block, so with the growth policy of Vec a constant number of bytes for each byte typed and each byte of the text at the start.",
  "all texts, all call sequences before, all strings typed, any number of them", "an amortised bound over runs of any length", [GB+": insert, delete, move_gap, write_to_gap"])
p("Which error",
  "Every failure reports the right kind of error. reload: MissingPath exactly without a path, the error of reading the file exactly if that fails (InvalidData if it is not UTF-8), buffer unchanged. open_buffer: only I/O errors, that of reading before that of canonicalizing, never for a path that leads to an open buffer, workspace unchanged. save: NotFound without a path and the error of creating the file, both with nothing touched; otherwise exactly that of the first write, before everything was written, that failed (WriteZero for a write of nothing), and the file then holds exactly the bytes that the writes before it wrote. Workspace::new: an unloadable folder of syntaxes before a missing path. MissingScope is never reported by anything.",
  "all buffers, all workspaces reached by calls, all file systems with all errors, all outcomes of all system calls", "needs file systems that fail in particular ways at particular moments", ["src/errors.rs", "src/buffer/mod.rs: from_file, save, reload", "src/workspace.rs: new, open_buffer, current_buffer_tokens, update_current_syntax"])
p("Highlighting the current buffer",
  "After any program, highlighting the current buffer reports EmptyWorkspace exactly if nothing is open, MissingSyntax exactly if the selected document has no syntax - never, if the program did not take one away - and otherwise only an error that the highlighter for its syntax gave. Otherwise the tokens are exactly the text of the document as edited by then (a part from its start, if an error of the highlighter ends them). In text without CR, when lexemes begin and end on cluster boundaries, the cursor can be moved to the position of each, and reading from there as many clusters as it has gives the lexeme.",
  "all programs, all file systems, all allocators, all highlighters for each syntax with boundary offsets", "unbounded programs; depends on the highlighter and on errors at any line", ["src/workspace.rs: current_buffer_tokens", "src/buffer/token/*.rs", "src/buffer/mod.rs", "src/buffer/cursor.rs: move_to"])
p("Assigning the public fields of buffers and cursors",
  "A program may put any cursor into any buffer (of another buffer, or on a gap buffer of its own), set any callback, and edit gap buffers directly through the pointer in a cursor. No such program panics or damages a text; data() always gives the buffer's own contents. Wherever the cursor points, edits, undo and redo change only the buffer's own contents, exactly as with a cursor of its own at that position; movements look only at the gap buffer of the cursor; replacing the contents gives the buffer a cursor of its own again. Direct edits, assignments and calls on other buffers never change what can be undone or what modified() says.",
  "all programs, all callbacks that do not panic, all texts and positions", "unbounded interleavings over shared, mutable, aliased state", ["src/buffer/mod.rs: Buffer", "src/buffer/cursor.rs", "src/buffer/operation/*.rs"])
p("Typing and erasing",
  "On ordinary text (CRLF, marks and other clusters that can merge excluded), typing a string key by key - insert a cluster and move right, or insert a newline and move down to the start of the line - gives the text that inserting it at once gives, and leaves the cursor behind it. It is one undo step per key; that many undos restore the text and that many redos bring it back. Backspace (move left, or up to the end of the line, and delete) once per cluster removes any string before the cursor; delete n times removes the n clusters after it, newlines included, and nothing at the end of the text.",
  "all texts and strings of ordinary clusters, all cursor positions, all histories, all allocators", "runs of any length over moving gap and cursor", ["src/buffer/operation/insert.rs", "src/buffer/operation/delete.rs", "src/buffer/cursor.rs: move_left, move_right, move_up, move_down, move_to_end_of_line, move_to_start_of_line", "src/buffer/mod.rs: undo, redo"])
p("Find and replace",
  "In text of single-byte clusters, the results of search can be used as positions: deleting as many columns as the needle has and inserting a replacement at any result replaces that occurrence and nothing else. Doing so for all results that do not overlap an earlier one, from the last to the first, gives what replacing in the string from left to right gives, also if needle and replacement contain each other and if the replacement has newlines. In a group this is one undo step. With a character of more than one byte before a result on its line, another place is changed.",
  "all texts, needles and replacements of single-byte clusters, all histories, all allocators", "all overlaps of needle, text and replacement; positions shift with each edit", ["src/buffer/mod.rs: search", "src/buffer/operation/*.rs", GB+": insert, delete"])
p("A whole program on a disk",
  "A program works with a workspace on a disk that nobody else changes: it opens files, edits, undoes, switches, saves, saves under other names, reloads and closes, in any order and with any failing system calls. No call panics; contents, cursor, modified(), undo and redo depth, path, id and syntax of every open buffer, the selection and the contents of every file are those of a list of documents and a table of files. Only saves change files. A file always holds what it held at the beginning or a leading part of the bytes of the text that the current buffer had at one of the saves.",
  "all programs, all directory trees (also with hard links), all contents of the disk, all outcomes of all system calls", "unbounded interleavings of edits, failing saves and reloads over several buffers and files", ["src/workspace.rs", "src/buffer/mod.rs: from_file, save, reload", "src/buffer/operation/*.rs", GB])
p("Edits made for one text",
  "A list of edits whose positions were all computed for one text (each replaces a stretch of it, none overlap) gives exactly the simultaneous substitution if applied from the last to the first; applied from the first to the last it does so if each position is computed for the text as changed so far. In a group such a list is one undo step: one undo restores the text, one redo makes all edits again. Applied from the first to the last with the original positions, the result can be another text.",
  "all texts and edits of ordinary clusters, any number of edits, all histories, all allocators", "any number of edits whose positions shift each other", ["src/buffer/operation/*.rs", "src/buffer/mod.rs: insert, delete_range, start_operation_group, end_operation_group, undo, redo", GB+": insert, delete"])
p("Cut and paste",
  "Reading the range of a stretch of text gives that stretch; deleting the range and inserting what was read anywhere in the rest gives the text with the stretch moved there and nothing else changed. In a group this is one undo step: one undo restores the text, one redo moves it again.",
  "all texts of ordinary clusters, all stretches and places, all histories, all allocators", "every pair of places in texts of any length", [GB+": read, insert, delete", "src/buffer/operation/*.rs", "src/buffer/mod.rs: read, delete_range, insert, undo, redo"])
p("Callbacks that panic",
  "If the change callback panics in the middle of a call and the caller catches that and goes on, no later call panics by itself and the contents can always be read. Only edits, undo and redo can be left that way. An edit left that way has been made - contents, cursor and reports are those of the finished edit - but undo history, open group and modified() do not know of it. An undo or redo left that way has moved the step in the history; a single edit is taken back or made completely, of a group some of its last (first) edits are. Calls that return do what they always do.",
  "all call sequences, all sets of callback calls that panic, all texts and allocators", "a panic may come at any call of the callback in a history of any length", ["src/buffer/operation/insert.rs", "src/buffer/operation/delete.rs", "src/buffer/operation/replace.rs", "src/buffer/operation/group.rs", "src/buffer/mod.rs: insert, delete_range, replace, undo, redo, reload"])
p("Caches kept with the change callback",
  "An application keeps, for the starts of some lines, values computed from the text before them (states of a parser, say), and drops those of the lines after each position that the change callback reports. In any session, whatever it computes or forgets between calls, every value it still has is the one it would compute from the text as it is now. This is enough for highlighting: the tokens of a text up to a newline do not depend on what follows that newline. For two texts that agree up to it, the iterator is created for both or for neither, and the tokens begin alike up to that newline, or stop before it with the same error.",
  "all sessions of clean calls, all functions of the text, all highlighters with boundary offsets, all pairs of texts", "a statement about pairs of texts and about all histories; a stale value goes unnoticed until it is used", ["src/buffer/mod.rs: change_callback", "src/buffer/operation/*.rs", "src/buffer/token/token_iterator.rs", "src/util/line_iterator.rs"])
p("A buffer is a list of lines",
  "On ordinary text (no clusters that merge with their neighbours, no carriage returns) a buffer behaves as an editor of lines whose state is a list of rows of clusters: inserting splits a row, deleting at the end of a row joins it with the next, the history keeps whole pages. In any session from a new or loaded buffer no call panics, and the contents, the cursor with its sticky column, modified, line_count, the positions in bounds and every range read are those of the page.",
  "all sessions of calls whose strings are ordinary, whose ranges to delete have an end in the text (or no start in it), without redo while a group with edits is open", "equality with an independent implementation over all sessions", ["src/buffer/mod.rs", "src/buffer/gap_buffer.rs", "src/buffer/cursor.rs", "src/buffer/operation/*.rs"])
p("Edits of different lines do not interfere",
  "Take edits each within one line: go to a place, delete some clusters of the line, insert text without newlines. Whatever their order, each line of the result is what the edits of that line, in their order, make of it. So two sessions with the same edits for each line give the same contents, however the lines are interleaved.",
  "all such sequences of edits on ordinary text, all interleavings", "the interleavings of even a few edits are too many to run", ["src/buffer/operation/insert.rs", "src/buffer/operation/delete.rs", "src/buffer/gap_buffer.rs"])
p("File names and extensions",
  "file_name is the last component of the path if that is a name in UTF-8, else None. file_extension is what follows the last dot of the name, provided something precedes the dot and something follows it; in names that are not UTF-8, with replacement characters. So foo.tar.gz has the extension gz; .bashrc, Makefile and foo. have none; the root / and a path ending in .. have neither name nor extension. A new buffer has no path, name, extension, syntax or id, is empty, and counts as modified.",
  "all buffers, all paths, all names of any bytes", "names are arbitrary byte strings with any number of dots", ["src/buffer/mod.rs: file_name, file_extension"])
p("Positions kept up to date by arithmetic",
  "A program that remembers positions (bookmarks, selections) can keep them up to date without looking at the text again: from the position of the edit and the size of the inserted text, or the ends of the deleted range. After an insertion every position moved that way exists exactly if it did before, ranges read before the place and behind it read the same at the moved positions, and between the place and its moved position is the inserted text; likewise behind a deleted range. Over a whole session a mark put at a cluster stays at that cluster until the cluster is deleted (or a call that is not an edit of one place gives it up). Adjacent ranges read join up, and deleting what was inserted brings every mark back.",
  "all reachable buffers, all positions (in the text or not), all sessions of calls that do not fuse clusters", "all positions after all edits", ["src/buffer/operation/insert.rs", "src/buffer/operation/delete.rs", "src/buffer/gap_buffer.rs", "src/buffer/mod.rs", "src/buffer/position.rs"])
p("Edits made at the same time can be merged",
  "Two programs hold buffers with the same text (in whatever states: gaps, cursors, histories may differ), and each puts in text at a place or cuts out a range without knowing of the other's edit. If each then makes the other's edit, with positions moved by arithmetic alone, no call panics and both buffers hold the same contents: the original text with, at each place, what the first program puts there, then what the second does, and without what either cuts out (text put inside a range that the other cuts out goes with it). The same for any number of edits on both sides: both buffers end with the same contents.",
  "all pairs of reachable buffers with the same ordinary text, all pairs of edits and all pairs of sequences of edits", "all interleavings of two sequences of edits", ["src/buffer/operation/insert.rs", "src/buffer/operation/delete.rs", "src/buffer/gap_buffer.rs", "src/buffer/mod.rs", "src/buffer/position.rs"])
p("Several programs on the same files",
  "Any number of programs with workspaces use the same disk, and others change files at any time in any way (also the directories). Nothing panics; each program sees its own documents with a selection as if alone, since what others do changes files but no document; a program that opens and reloads nothing does not notice the others at all. A file always holds what it held at the beginning, what someone else left there, or bytes (from the start) of the text some program's current buffer had when it saved. Saving does not look at what is in the file: what others wrote there since is replaced, and their buffers of the same file stay unmodified (a finding).",
  "all sequences of steps of any number of programs and of changes by others, all disks and directory trees", "the interleavings of several programs and outside changes", ["src/buffer/mod.rs: save, reload, from_file", "src/workspace.rs"])
p("The dialogue of a program",
  "A program works with a workspace and files and asks questions in between. No call panics, and every value it is told is the one that the documents and files say: contents, ranges read, places found by search, number of lines, modified(), cursor, whether a place exists, id, path, name and extension, index, paths (relative to the workspace), the text and syntax handed to the highlighter, whether move_to, open_buffer, reload, update_current_syntax succeeded, and how a save ended. Among texts whose clusters do not merge, the program cannot find out how memory is allocated: with any two allocators it is told the same and leaves the same files.",
  "all programs and questions in any order, all directory trees, disks and outcomes of system calls, all allocators", "values returned after unbounded histories; a statement about pairs of allocators", ["src/buffer/mod.rs", "src/workspace.rs", "src/buffer/cursor.rs: move_to", "src/buffer/gap_buffer.rs: read, in_bounds"])
p("Saves at the same time",
  "Any number of programs save, their system calls (create, write, short writes, interrupts, failures) interleaved in any order. Nothing panics. A file that no save opens stays as it is; in every other file each byte is the one written last at that place since the file was last truncated, so it is a byte of one of the saved texts at its own place, or zero. Exactly the buffers whose save ended without error become unmodified. A save during which no other save works on the file leaves a leading part of its text, all of it if it ends without error; saves of the same text that all end without error leave that text. Otherwise two saves can both succeed and leave one text followed by the rest of the other (which may not be UTF-8), or zeros in between, with both buffers reported as unmodified (a finding).",
  "all numbers of saves, all texts, all interleavings of all outcomes of system calls, all disks", "interleavings of system calls of several processes", ["src/buffer/mod.rs: save"])
p("Files with CRLF line ends",
  "CRLF is one cluster that no ordinary neighbour merges with. So a file with CRLF line ends (mixed with bare newlines or not) can be edited in a Buffer with all that is promised for ordinary text, as long as no inserted string contains CRLF (loaded, replaced and reloaded contents may): no call panics, the contents are the present of the snapshot history, undoing often enough restores the initial text, an unmodified buffer equals the file, and at no moment is there a CR without its LF; delete before a CRLF removes both characters and undo brings both back. If a string with k CRLFs and n clusters after its last line end is inserted, undo takes with it everything after the cursor up to line k, column n counted from the cursor.",
  "all sessions on all texts of ordinary clusters and CRLFs, for every Unicode table; the last sentence for all reachable buffers and all insertions that merge no clusters", "arbitrary mixtures of line ends and histories; the text that undo destroys depends on what follows the cursor", ["src/buffer/operation/insert.rs", "src/buffer/operation/delete.rs", "src/buffer/gap_buffer.rs", "src/buffer/mod.rs"])
p("The tokens as a function of the text",
  "The tokens are a function of the lines, the events and the scope operations: on every line an event behind the last lexeme ends a lexeme there and then changes the scopes, other events only change the scopes, what is left after the last event is a lexeme if it is not empty, and a newline token stands between lines; each lexeme carries the scopes and the position (line, clusters before it) at its start. An error is recorded exactly if parsing the lines one after the other and applying their events fails, and it is the first failure; the lexeme that a failing event would end, and the newline before a line that cannot be parsed, are not returned; creating the iterator fails exactly if the first line cannot be parsed. After any program the tokens of the current buffer are those of the selected document's text under the highlighter for its syntax.",
  "all strings, all parsers with boundary offsets, all scope semantics; all programs", "equality of whole streams, with all parsers and errors at any place", ["src/buffer/token/token_iterator.rs", "src/util/line_iterator.rs", "src/workspace.rs: current_buffer_tokens"])
p("Tokens with any parser",
  "Whatever offsets a parser reports, creating the token iterator never panics and fails exactly if the first line cannot be parsed. Iterating returns a function of the text and the events and then ends well, with the error of C101, or panics; it panics exactly at an event behind the current offset that is inside of a character, or that comes when the offset is already behind the end of the line. The tokens returned up to there read as a prefix of the text (as all of it if nothing failed), each lexeme carries the position where the tokens before it end, and there are at most bytes + newlines + 1 of them. A parser whose offsets are character boundaries of the line without its newline, or one and the same offset behind its end, never makes it panic and gives the tokens of C101. current_buffer_tokens never panics after any program with any parsers.",
  "all strings, all parsers with any offsets (unsorted, inside characters, behind the end), all scope semantics; all programs", "all misbehaving parsers; exactly when a panic happens", ["src/buffer/token/token_iterator.rs", "src/workspace.rs: current_buffer_tokens"])
p("Every call of a token iterator, also after errors",
  "Whatever the parser does and however often next is called, also after it returned None, the value of every call and of the field error after it is a function of the text and the events. A line that cannot be parsed costs one None and is passed over (its newline with it); the following lines come as usual, with their own numbers. A scope change that fails costs one None; the lexeme before it, if there is one, is lost, and what follows on the line keeps its place. The field error always holds the last error. After the last line next returns None for ever and changes nothing. Up to the first error these are the tokens of C102. Every lexeme ever returned is a piece of the line its position names.",
  "all strings, all parsers with any offsets, all scope semantics, any number of calls", "all numbers of calls after all combinations of errors", ["src/buffer/token/token_iterator.rs"])
p("Arguments of the caller's own types",
  "insert takes any type that converts into a string and replace any type that also can be seen as one; the conversions are code of the caller that runs inside these functions. If they give the same string and do nothing else, as those of String and &str, the functions do what they do with the string. If they edit the gap buffer through a pointer they hold, no RefCell is borrowed twice and nothing panics. insert puts the converted string at the cursor into whatever the conversion left, and undo takes out the string but not what the conversion did. replace compares what as_ref says with the contents from before it ran: if they are equal nothing happens and into does not run, whatever it would give; otherwise the contents become what into gives, also if that is what they were, as one undo step, and undo returns to the text there was between the two conversions.",
  "all conversions (also ones that disagree and ones that edit), all texts, all cursors, all sequences of such calls mixed with others and with editing callbacks", "arbitrary code of the caller in the middle of a call", ["src/buffer/operation/insert.rs: insert", "src/buffer/operation/replace.rs: replace"])
p("Memory kept for undo",
  "Whatever is called in whatever order, the strings kept for undo, for redo and in the open group have exactly as many bytes as the calls have added, less what they have given up. insert adds its string (also where it has no effect), a deletion what reading its range returns (so nothing if an end does not exist; otherwise, on a text without merged clusters, exactly what it takes from the text), replace and reload both contents if they differ. An edit outside of groups and closing a group that is not empty give up what could be redone; undo in an open group gives up the group; nothing else gives up anything. So there is no limit and no loss: without edits it never grows, undo outside of groups, redo, movements and saves leave it as it is, and in sessions without undo it is the sum of all that was added, however often the file is saved. reload, documented to discard the history, keeps it and both contents besides.",
  "all sequences of calls on all texts, all allocators; the exact size of deletions for gap buffers whose halves are segmented as the text", "a balance over unbounded sessions", ["src/buffer/operation/history.rs", "src/buffer/operation/delete.rs", "src/buffer/operation/replace.rs", "src/buffer/operation/group.rs", "src/buffer/mod.rs: undo, redo, reload"])
p("Gap buffers are freed when nobody holds them",
  "With every Rc::new, Rc::clone and drop made explicit: no program that makes buffers, calls them, clones, assigns and drops cursors, clones the public pointers in them, makes cursors and callbacks from these, and drops buffers in any order ever uses or drops a gap buffer that is already freed. At every moment the count of a gap buffer is the number of pointers to it that buffers, their cursors, their callbacks, loose cursors and loose pointers hold, and exactly those with a holder are not freed. A new buffer is that of the model without pointers, in a gap buffer of its own, and leaves all that is held as it is. When all that is held is dropped nothing is left. A program that clones nothing has exactly one gap buffer per buffer, so what replace, reload and the undo or redo of these leave behind is freed at once, as is everything of a file whose path cannot be canonicalised after reading. After replace somebody else who still holds the old gap buffer sees the old text, unchanged. Each call does to the buffer what the model without pointers says, and changes no gap buffer but the buffer's own. A call on a gap buffer through a kept pointer changes that gap buffer as the call says, for all who hold it, and nothing else; a kept cursor moves in the text of the gap buffer it holds and changes nothing else.",
  "all programs of such steps, of any length, all texts, segmenters and allocators", "ownership over all interleavings of clones and drops", ["src/buffer/mod.rs: Buffer, default, from_file", "src/buffer/cursor.rs: Cursor", "src/buffer/operation/replace.rs: replace_content"])
p("Token iterators whose panics are caught",
  "next panics exactly where the parser reports an offset at which the line cannot be cut (inside of a character, or behind the end of the line after another one there), or where the parser or the scope stack panic themselves. A caller who catches the panic and goes on loses one call and nothing of the text: an offset that cannot be cut at is forgotten together with its scope change, and the calls that do not panic are those of C103 for a parser that does not report it; a panic of the parser passes over its line and one of the scope stack takes the lexeme before it along, as errors do, but the field error stays. After finitely many panics next returns None for ever. Every lexeme ever returned is a piece of the line its position names.",
  "all strings, all parsers with any offsets, all scope semantics, all choices of where these panic, any number of calls", "all combinations of panics, errors and calls after them", ["src/buffer/token/token_iterator.rs"])
p("Finding a place reads the text up to it",
  "What the calls of a gap buffer read is known exactly. A position is found by decoding the whole text before the gap and going over its clusters up to the place; a place behind the gap, or one that does not exist, costs the text after the gap as well. insert looks up one position (after making room, which may move the gap), in_bounds one, read up to two and then decodes what it returns, delete up to three, the second and third with the gap at the start of the range; to_string decodes everything. So no call decodes more than three times the bytes of the text, and insert and in_bounds at most once all of it. But nothing is remembered between calls: appending strings one by one to a new gap buffer decodes for each of them all of the text so far and looks at each of its clusters, although the gap is already there; n strings cost at least n times the first text and n(n-1)/2 bytes more.",
  "all sequences of calls on all texts, all segmenters, all allocators", "exact counts for unbounded inputs; growth cannot be told from finitely many runs", ["src/buffer/gap_buffer.rs: find_offset, insert, delete, read, in_bounds", "src/buffer/gap_buffer.rs: Display"])
p("Paths as strings",
  "How the path of a buffer, a string of bytes, is read: it is cut at its slashes, and pieces that are empty or a dot do not count (but a slash at the beginning is the root, and a dot as the first piece the current directory); two dots are the parent, all else are names. So a//b, a/./b, a/b/ and a/b/. are the same path as a/b, for open_buffer too. The name of the file is the last piece that counts, whatever slashes and dots follow, unless it is two dots. What buffer_paths reports for a path below that of the workspace is a part of its string, without slashes and dots around it, that means the remaining components; for canonical paths it is exactly the remaining names with slashes in between, and a path that does not begin with all names of the workspace path (/ab is not below /a) is reported unchanged.",
  "all strings of bytes", "all strings; the iterators from the front and from the back must agree on each", ["src/buffer/mod.rs: file_name, file_extension", "src/workspace.rs: current_buffer_path, buffer_paths, open_buffer"])
p("Calls while the caller holds a guard",
  "The gap buffer is public as buffer.cursor.data, so a caller can keep a guard of it (borrow or borrow_mut) while calling the buffer, and can catch the panic that follows. Which calls panic is known exactly: under a shared guard insert, delete and delete_range, and an undo or redo whose first edit that does anything is not a replacement; under an exclusive guard also data, replace, reload and every movement but move_up on the first line and move_left at the start of a line. replace works under a shared guard, and after it the guard is one of a gap buffer that the buffer no longer uses, so everything works again. A call that returns has done what it does without guards. A call that panics has changed neither contents nor cursor and called no callback, and except for undo and redo it has changed nothing at all. But undo and redo have moved in the history already: after an undo that panicked, redo makes the insertion a second time (a finding). Whatever was caught, no later call panics by itself.",
  "all calls in all states, all guards, all programs that take, drop and keep guards and catch the panics; all segmenters and allocators", "every state of history and group at the moment of a panic; the state left behind by an unwound call", ["src/buffer/cursor.rs: Cursor", "src/buffer/operation/insert.rs", "src/buffer/operation/delete.rs", "src/buffer/operation/replace.rs", "src/buffer/operation/group.rs", "src/buffer/mod.rs: undo, redo, data"])
p("What the calls of a buffer read",
  "What every call of a buffer decodes of its text, after any calls, is known exactly, in terms of the lookups of C108 and where the gap is. An insertion looks up one position and so decodes the text at most once; delete_range reads what it deletes and then deletes it, at most six times; delete looks up one more; move_up and move_down decode it once if the column exists in the other line and otherwise up to three times, the other movements once or twice; replace and reload decode the old text once if nothing changes and otherwise twice, and look up one or two positions in the new one. Undoing a step of n edits decodes at most 3n times the bytes of the text and of the strings of that step, redoing it 6n times, because deletions are read again. Groups, saving and setting the cursor or the callback decode nothing. With the cursor at the end of the text each insertion and each move_right decodes all of it, wherever the gap is and whatever was called before.",
  "all sequences of calls on all texts, all segmenters, all allocators", "exact counts for unbounded sessions; growth cannot be told from finitely many runs", ["src/buffer/cursor.rs", "src/buffer/operation/insert.rs", "src/buffer/operation/delete.rs", "src/buffer/operation/replace.rs", "src/buffer/operation/group.rs", "src/buffer/mod.rs: undo, redo, reload"])
p("Walking through a text",
  "In text without carriage returns, where any sequence of cursor movements takes a cursor that is in bounds, and which column it wants afterwards, is a function of where it was and of the numbers of clusters of the lines; nothing else of the buffer changes and the cursor stays in bounds. Up and down keep the wanted column, as do left at the start of a line, right at its end, and move_to_end_of_line on an empty last line; every other movement that succeeds, also those to the first and last line, makes the column it reaches the wanted one. So two texts whose lines have the same lengths cannot be told apart by moving, and with the four arrow keys one gets from every place to every other: up as often as it may take, down to its line, left as often as it may take, right to its column.",
  "all texts without carriage returns, all sequences of movements, all cursors in bounds with any wanted column, all states that clean calls lead to", "all walks of any length on all pages", ["src/buffer/cursor.rs"])
p("Indenting and outdenting lines",
  "What an editor does to a block of lines: as one operation group, go to the start of each of some lines and insert the same string, or delete the first n clusters of each (lines that have that many). In ordinary text without carriage returns the outcome is given by splitting the text at its newlines: exactly the lines that were named have the string before them (or lack their first n clusters), once for every time they were named, in whatever order they were named and wherever the cursor and the gap were; all other lines are as before. It is one step of the history: one undo gives the text from before and one redo the result. Deleting as many clusters as the inserted string has from the same lines, in any order, gives the text from before. Asked for more clusters than a line has, the call deletes that line with its newline (the last line becomes empty), and undo does not bring it back.",
  "all ordinary texts without carriage returns, all inserted strings of ordinary clusters without newlines, all lists of existing lines in any order and with repetitions, all states that clean calls lead to, for every Unicode table", "any number of lines in any order; the lines must not disturb each other", ["src/buffer/operation/insert.rs", "src/buffer/operation/delete.rs: delete_range", "src/buffer/operation/group.rs", "src/buffer/cursor.rs: move_to", "src/buffer/mod.rs: undo, redo"])
p("Debug output",
  "Position, Distance, Range, LineRange and tokens can be printed with {:?} and {:#?}. In both forms the output tells the value, and where it ends whatever follows it: two values print the same only if they are equal, and no output is the beginning of another one. So what a program writes that prints the tokens of a text one after the other, with nothing in between, tells all the tokens and the text. This needs no knowledge of which characters the standard library holds to be printable (any choice does), only that the output of the scopes has the same property. A lexeme is written on one line by {:?}, whatever characters it contains.",
  "all values, all strings, all choices of printable characters, all ways to print scopes that can be told apart", "all pairs of strings; a missing escape shows only for pairs that collide", ["src/buffer/position.rs: Position", "src/buffer/distance.rs: Distance", "src/buffer/range.rs: Range", "src/buffer/line_range.rs: LineRange", "src/buffer/token/mod.rs: Token, Lexeme"])
p("Replacing lines by other lines",
  "Moving, doubling, sorting, joining and reformatting lines are done by deleting from the start of line i to the end of line j and inserting a string there, as one operation group. In ordinary text without carriage returns the lines of the string then stand in place of lines i to j, all other lines are as before (also if j is the last line, with or without a newline at its end), and the cursor is at the start of line i. It is one step: one undo gives the text from before, one redo the result. If the inserted lines are lines of the text, in any order and number, nothing more has to be known about them; if they are the replaced ones in another order, the lines of the result are those of the text in another order.",
  "all ordinary texts and strings without carriage returns, all blocks of lines, all rearrangements, all states that clean calls lead to, for every Unicode table", "all blocks and all rearrangements; lines outside of the block must not change", ["src/buffer/operation/insert.rs", "src/buffer/operation/delete.rs: delete_range", "src/buffer/operation/group.rs", "src/buffer/cursor.rs: move_to", "src/buffer/mod.rs: undo, redo"])
p("Highlighting only what changed",
  "If neither the parser nor the scope stack fails in the lines before some line, the tokens of a text are those of these lines, which do not depend on what follows, then a newline, and then the tokens that the rest of the text has by itself when parser and scopes begin in the state they have there, with line numbers higher by the lines before; an error after that is the same too, and if the rest cannot be parsed at all the tokens end with those of the lines before. So if two texts end alike and parser and scopes are in the same state where the common end begins, its tokens are the same in both but for the line numbers, which differ by the same number throughout: after an edit an application can stop highlighting at the first such line and keep the tokens it has. The states at the starts of lines can be computed from each other, and kept with the change callback as in C91 they lead, after any session, to the tokens of the text from their line on.",
  "all texts, all highlighters with event offsets at character boundaries, also failing ones; all sessions of clean calls", "all pairs of texts and all highlighter states; a state that leaks across lines shows only in some", ["src/buffer/token/token_iterator.rs: new, next_token, build_next_token, parse_next_line", "src/buffer/token/line_iterator.rs", "src/buffer/mod.rs: change_callback"])
p("Moving a cursor that is not in the text",
  "Edits and undo do not move the cursor (C69) and its position can be assigned, so it can be at a line or column that does not exist. In text without carriage returns, where any movements take any cursor is a function of its position, its wanted column and the numbers of clusters of the lines; nothing else of the buffer changes. A movement of a cursor that is not in the text either brings it into the text or leaves it exactly as it is, wanted column included. move_to_first_line and move_to_last_line always bring it back; move_to_start_of_line if its line exists; move_to_end_of_line if its line exists and is not an empty last line; move_up if there is a line above it; move_down if there is one below it; move_left if it is one column after the end of its line; move_right never. So a cursor two lines or more below the last one stays there whatever and however often of up, down, left, right, start of line and end of line is called, and in a text of one line the four arrow keys never bring a cursor back that is two columns or more after its end. move_to_first_line followed by move_to_start_of_line leads from everywhere to the start of the text.",
  "all texts without carriage returns, all cursors, all sequences of movements, all states that clean calls lead to", "all positions outside of all texts; that nothing helps cannot be told from finitely many attempts", ["src/buffer/cursor.rs"])
p("Going to what search has found",
  "search says where a string occurs in bytes from the start of its line, while positions count clusters. In text without carriage returns: a position that search gives is in bounds exactly if its line has at least as many clusters as there are bytes before the occurrence. If the occurrence begins and ends between clusters, its column is the number of clusters of the text before it in its line, and reading from there as many clusters as the needle has gives the needle; this column is never greater than the offset of the result, and equal to it exactly if all clusters before it in the line are single bytes. Reading n clusters at the result itself gives the clusters that come after as many clusters of the line as there are bytes before the occurrence - so other text, or None if the line is too short.",
  "all texts without carriage returns, all needles, all hits, all states that clean calls lead to, all segmenters", "all texts with multi-byte clusters before an occurrence", ["src/buffer/mod.rs: search", "src/buffer/gap_buffer.rs: in_bounds, read"])
p("Conversions that panic",
  "insert and replace convert their argument (Into<String>, AsRef<str>), and that can panic, as can the change callback. A call whose argument panics while it is converted leaves the buffer exactly as it was: contents, cursor, history, open group and the mark of the saved state. This is so for insert if into() panics, and for replace if as_ref() panics, or if into() does and the contents differ from what as_ref() gave; if they do not differ, into() is not called and the call returns, and changes nothing. So a program that catches all these panics and goes on has the buffer it would have if it had not made the calls whose argument could not be converted, whatever its callback does; also in the middle of an operation group. No call panics by itself, and the contents can be read.",
  "all buffers, all sequences of calls, all choices of which conversions and which calls of the callback panic; all segmenters and allocators", "the state left behind by an unwound call, in every state of history and group", ["src/buffer/operation/insert.rs: insert", "src/buffer/operation/replace.rs: replace"])
open("/verif/properties.jsonl","w").write("".join(json.dumps(x)+"\n" for x in P))
print(len(P))
