{
 "C01": {
  "note": "All call sequences, positions, strings, allocators and segmenters satisfying the laws; C01_no_panic_uax29 instantiates it at the full UAX #29 automaton for any table. Arithmetic is unbounded with checked subtraction here; overflow is C58."
 },
 "C02": {
  "note": "All call sequences. The bytes handed out by the allocator are arbitrary."
 },
 "C03": {
  "note": "Hypothesis Holds: the gap lies on a cluster boundary of the text. C03_insert_again shows that an insertion that merges no clusters preserves it; without it the claim is false (C55), and C45 is what remains."
 },
 "C04": {
  "note": "Hypothesis Holds (see C03)."
 },
 "C05": {
  "note": "Hypothesis Holds (see C03); preserved by deletions that merge no clusters (C05_delete_again)."
 },
 "C06": {
  "note": "Hypothesis Holds (see C03)."
 },
 "C07": {
  "note": "Hypothesis Holds (see C03). None exactly when one of the ends does not exist."
 },
 "C08": {
  "note": "Hypothesis Holds. A CRLF cluster is not a newline cluster (C51); C08_in_bounds_lines is the line/column form for text without CR."
 },
 "C09": {
  "note": "For call sequences that merge no clusters (a decidable condition on the texts alone); the general claim is false (C55)."
 },
 "C10": {
  "note": "Hypothesis Holds."
 },
 "C11": {
  "note": "Hypothesis Holds; insertion without CRLF that merges no clusters."
 },
 "C12": {
  "note": "For buffers reached by clean histories; the conditions are needed (C50, C52, C55)."
 },
 "C13": {
  "note": "All clean call sequences; ordinary text needs no conditions (C49)."
 },
 "C14": {
  "note": "For buffers reached by clean histories, no open group."
 },
 "C15": {
  "note": "For every state, clean or not."
 },
 "C16": {
  "note": "Clean edits inside the group; C16_empty_group for every state."
 },
 "C17": {
  "note": "Clean edits inside the group; C17_undo_empty_group for every state."
 },
 "C18": {
  "note": "Clean histories in which save and reload happen outside groups; a save inside a group is a counterexample (C53)."
 },
 "C19": {
  "note": "C19_edit_modifies for every state; C19_mark_is_tracked for buffers reached by clean histories."
 },
 "C20": {
  "note": "All outcomes of File::create and write (short, interrupted, failing). Assumes that nobody else writes to the file during the call."
 },
 "C21": {
  "note": "All crash points. File::create truncates in one step; each write call appends in one step."
 },
 "C22": {
  "note": "All texts and byte strings; strict UTF-8 decoding as std::str::from_utf8."
 },
 "C23": {
  "note": "For every state whose contents can be read (all reachable ones, C47); the cursor positions are those of the new contents."
 },
 "C24": {
  "note": "For every readable state."
 },
 "C25": {
  "note": "For buffers reached by clean histories and clean calls."
 },
 "C26": {
  "note": "C26_move_to and C26_moves_stay_in_bounds for every reachable gap buffer (in_bounds as the API reports it); C26_move_to_text relates it to the text under Holds."
 },
 "C27": {
  "note": "Hypotheses Holds and no CR in the text (C51 shows why)."
 },
 "C28": {
  "note": "Hypotheses Holds and, for the line ends, no CR in the text."
 },
 "C29": {
  "note": "Hypotheses Holds and no CR in the text."
 },
 "C30": {
  "note": "Offsets found are byte offsets in the line (as the code computes them), which are positions only when every cluster is a single byte; C30_search_positions."
 },
 "C31": {
  "note": "C31_line_count for every state; C31_line_exists for text without CR."
 },
 "C32": {
  "note": "No hypotheses."
 },
 "C33": {
  "note": "No hypotheses; arithmetic at usize::MAX is C61."
 },
 "C34": {
  "note": "Distances are in bytes (as the code computes them); C34_distance_is_extent for clusters of one byte."
 },
 "C35": {
  "note": "No hypotheses."
 },
 "C36": {
  "note": "Any highlighter (parser, scope stack, both may fail) whose event offsets are character boundaries of the line; without that contract the slices panic."
 },
 "C37": {
  "note": "Same contract as C36."
 },
 "C38": {
  "note": "All call sequences, including arbitrary changes of the current buffer through the public field that leave a buffer in it. Taking the buffer out of the field: C76."
 },
 "C39": {
  "note": "All call sequences."
 },
 "C40": {
  "note": "All reachable workspaces."
 },
 "C41": {
  "note": "For callers that do not overwrite ids through the public fields. The counter is unbounded here."
 },
 "C42": {
  "note": "For callers that open files only with open_buffer and do not overwrite paths; the path that is opened keeps its canonical form during one call."
 },
 "C43": {
  "note": "All reachable workspaces; paths as lists of components."
 },
 "C44": {
  "note": "Any syntax set. C44_tokens for callers that do not take the syntax away through the public field."
 },
 "C45": {
  "note": "No condition on clusters."
 },
 "C46": {
  "note": "Clean calls; C46_always_in_bounds for whole sessions of such calls."
 },
 "C47": {
  "note": "No condition at all on the calls."
 },
 "C48": {
  "note": "Same contract as C36; C48_token_scopes_sorted for parsers that emit events in order."
 },
 "C49": {
  "note": "C49_gap_buffer and C49_editing_session for any closed set of clusters; C49_ordinary_clusters shows that ordinary clusters of the UAX #29 automaton are one, for any table."
 },
 "C50": {
  "note": "A finding: the theorem describes what the code does."
 },
 "C51": {
  "note": "A finding: the theorem describes what the code does."
 },
 "C52": {
  "note": "A finding: the theorem describes what the code does."
 },
 "C53": {
  "note": "A finding: the theorem describes what the code does, in every state."
 },
 "C54": {
  "note": "A finding: the theorem describes what the code does."
 },
 "C55": {
  "note": "Why C09 and C12 exclude cluster-merging edits: what exactly happens instead."
 },
 "C56": {
  "note": "For every state."
 },
 "C57": {
  "note": "For every call sequence."
 },
 "C58": {
  "note": "Machine arithmetic of any width, debug and release; the excluded case is C60. C58_refused: a session is stopped exactly when its last vector is too long (vectors never shrink in a gap buffer)."
 },
 "C59": {
  "note": "Machine arithmetic of any width, debug and release. C59_refused: exactly when some vector on the way is too long."
 },
 "C60": {
  "note": "A finding: the theorem describes what the code does."
 },
 "C61": {
  "note": "Machine arithmetic of any width, debug and release."
 },
 "C62": {
  "note": "Rc/RefCell explicit; the callback is an arbitrary function on the heap that does not panic, keep guards or corrupt gap buffers by itself."
 },
 "C63": {
  "note": "Rc/RefCell explicit; justifies modelling the gap buffer by value in C12-C61."
 },
 "C64": {
  "note": "Rc/RefCell explicit."
 },
 "C65": {
  "note": "Rc/RefCell explicit. For buffers made through the API by any calls."
 },
 "C66": {
  "note": "The theorems describe what the code does (a finding). C66_undo_takes_range: any callback, any state of the buffer without an open group; the callback is removed before the undo. C66_reentrant_edit_not_undone is the older statement of existence, now a case of C66_not_undone."
 },
 "C67": {
  "note": "No condition on the calls."
 },
 "C68": {
  "note": "No condition on the calls; numbers unbounded as in the rest of the main model (see C59)."
 },
 "C69": {
  "note": "A finding: describes what the code does."
 },
 "C70": {
  "note": "Event offsets at character boundaries, as for C36. The last theorem is a finding."
 },
 "C71": {
  "note": "Event offsets at character boundaries, as for C36."
 },
 "C72": {
  "note": "Machine arithmetic of any width, debug and release. Any parser and any event offsets."
 },
 "C73": {
  "note": "Machine arithmetic of any width, debug and release. The second theorem is a finding. C73_results: the returned values as well."
 },
 "C74": {
  "note": "Combines the exact document of C68 with the workspace of C38. The file system may change between any two accesses."
 },
 "C75": {
  "note": "Copying of the old block by the allocator is not a use. The documented contract of set_len (elements initialised) is nevertheless broken by the code."
 },
 "C76": {
  "note": "The second and third theorem are findings."
 },
 "C77": {
  "note": "The classes of characters are a parameter; that the crate uses the tables of the current Unicode version is assumed."
 },
 "C78": {
  "note": "Text without CR (for text with CRLF see C51); the gap on a cluster boundary. That the last line is never read and its deletion never undone are findings."
 },
 "C79": {
  "note": "Careful programs (Spec/Editor): clean edits as in C12; saves without pending edits, reloads without an open group; a save that emptied the file succeeds; new paths are canonical and not those of another buffer. The directory tree does not change and has no hard links; nobody else writes. C79_failed_save and C79_hard_links show what happens otherwise."
 },
 "C80": {
  "note": "Growth policy of Vec is a hypothesis (Spec.Doubling; the allocator vec satisfies it). The reservation sees the size of the block."
 },
 "C81": {
  "note": "Counts iterations of the loops of move_gap and write_to_gap, and the old block for a reallocation (Model/Cost, proved equal to the functions without counter). The lookup of positions, which scans the text, is not counted here (see C108). Typing: positions are those of the gap (as in C67)."
 },
 "C82": {
  "note": "Error kinds as values (Model/Errors): EmptyWorkspace, MissingPath, MissingScope, MissingSyntax, Io with kind, errors of the highlighter, of loading syntaxes. C82_same connects these functions to those without kinds. C82_open: workspaces reached by calls (Runs). Chained causes and backtraces of error_chain are not modelled. C82_save_error: with which error a save ends and what the file then holds, C82_save_crash: when it does not end."
 },
 "C83": {
  "note": "Contract on highlighters as in C36 (offsets on character boundaries). C83_jump has the conditions of C37_positions_in_buffer, and that the lexeme ends on a cluster boundary; the gap is on a cluster boundary (Holds)."
 },
 "C84": {
  "note": "On the model with pointers and borrow flags (Model/Shared). Programs: Spec/Direct `Act`; pointers are arbitrary existing ones, which covers every pointer a program could hold. Each step is a complete statement, so no guard is held across steps (C62_guards covers those). For C84_edits_own_text and C84_bookkeeping, callbacks only look. Examples show the consequences: a directly edited buffer reports being unmodified, and undo after a direct edit can remove text of the file."
 },
 "C85": {
  "note": "Over any set of clusters that never merge and contain no CR (Closed); for the full UAX #29 automaton and any table, the ordinary clusters of C49. Keys: Spec/Typing (key, backspace), the calls an editor makes. C13_undo_edits is the general form of the undo part."
 },
 "C86": {
  "note": "Over any set of single-byte clusters that never merge (ASCII without CR). needle without newline and CR, not empty. `substitute` (Spec/FindReplace) is str::replace. `C86_elsewhere` is the last sentence, for any clusters: with a cluster of more than one byte before the occurrence on its line, the reported position lies to its right, and the calls made there leave a non-empty beginning of the occurrence and all before it in the text."
 },
 "C87": {
  "note": "Spec/Desktop: the documents of C74 with a disk; `written` says how many bytes a list of write results writes. Without the care that C79 asks for. A program that continues after a crash of `save` is included, which does no harm. The results of the calls are not part of it (C20, C24, C74, C82)."
 },
 "C88": {
  "note": "Over any closed set of ordinary clusters (no CR, marks or others that merge). `Piece` (Spec/Batch): text kept, text replaced, replacement; `source` and `target` are the two texts. An example shows that the order matters."
 },
 "C89": {
  "note": "Over any closed set of ordinary clusters. The place of insertion is given in the text without the stretch."
 },
 "C90": {
  "note": "Model/Unwind: the functions of Model/Buffer with the state at the moment of a panic. `fate` says which calls of the callback panic. Panics of the callback inside `replace_content` happen after the new contents are in place. A callback that itself changes the buffer is C66. C90_reports: during one call only the last report can be the one that panics; after it nothing more is reported."
 },
 "C91": {
  "note": "Spec/Cache models the application (computing, forgetting, dropping on report); the value is any function of the text before the line. The calls must be clean and leave the callback set. Second part: lockstep of two token iterators; offsets of events are assumed to be character boundaries, as in C36."
 },
 "C92": {
  "note": "Spec/Sheet is the editor of lines. It takes strings apart into rows with the segmenter and from then on has rows only. P is any set of clusters that stay as they are side by side (C49: the ordinary clusters, for every Unicode table) and have no carriage return. The callback is not part of it (C25, C91)."
 },
 "C93": {
  "note": "In any reachable state holding ordinary text, in a group or not. The edits must be possible: the clusters to be deleted are on the line at the time, which depends only on the earlier edits of that line."
 },
 "C94": {
  "note": "The path is a list of components; how Rust splits a string into components is C109. `Path::file_name` and `Path::extension` are modelled after std (Unix); the theorem states the result without their helpers."
 },
 "C95": {
  "note": "afterInsert and afterDelete are arithmetic on lines and offsets; the size of the inserted text is the position at its end (lines, clusters on the last line). In C95_session undo, redo, replace and reload give a mark up, as does the deletion of its cluster; C95_back is what is needed to keep it over the undo of an insertion."
 },
 "C96": {
  "note": "Ordinary text, as in C85 and C88: clusters that do not fuse. merged is defined from the two edits and the text, place by place, without the transformation; C96_many states convergence only (the merged text of several edits is what C96_two gives edit by edit). The transformed edits use positions and the sizes of inserted texts only."
 },
 "C97": {
  "note": "Calls of one program are not interrupted by others (as in C87: nobody else writes during a save). What others do is an arbitrary new disk; each step of a program may find another directory tree. The calls of C87 (Deed)."
 },
 "C98": {
  "note": "The calls of C87 and the questions of Ask. Errors are told apart as ok / error here, their kinds in C82; tokens is the text and syntax handed over, the tokens themselves are C36-C40. A save that crashes ends the program; the conversation of the model goes on, which only adds cases. C98_same asks that every string passed in or read is made of a closed set of clusters; C98_same_plain replaces that by a condition on the program's strings and the initial files."
 },
 "C99": {
  "note": "File handles as in POSIX: each save writes at its own offset, what is skipped is filled with zeros, File::create truncates. Files are not removed or renamed meanwhile. Each save is a call in a program of its own; C99_alone shows that one save alone is FileBuf.save (C20, C21)."
 },
 "C100": {
  "note": "Ordinary clusters as in C49, none of which contains CR; a lone CR in the file is excluded. Insertions contain no CRLF, whole contents may. C100_is_clean gives the assumptions of C12-C19 and C25 for groups and delete_range too. C100_paste_undo generalises C52 (which is the case without bare newlines)."
 },
 "C101": {
  "note": "Spec/Stream: `stream` works on the list of lines and splits them by bytes, without the iterator's state. Events need not be sorted. This is up to the first None; what the iterator does after an error is C70 and C103. C36 allowed any error as soon as the highlighter can fail somewhere, C101_error says when and which."
 },
 "C102": {
  "note": "No contract on offsets at all. Spec/Parser: `tokenRun` keeps what is left of the line, or that the offset is behind it. A panic ends the model of the iterator; catching it and going on is C107. C102_fit is C101 for a weaker contract, which the examples show to be close: two different offsets behind the end, or one inside of a character, panic."
 },
 "C103": {
  "note": "Spec/Resume: `callRun` lists the outcome of each call (token or error); `seen` is what the caller sees of it. Up to a panic; going on after a caught one is C107. The state of the parser and of the scope stack after a failure is whatever the highlighter returns with it. C103_first ties it to C102, so to C101 and C36."
 },
 "C104": {
  "note": "Model/Caller: the two generic functions with the order in which the conversions, the reads of the contents and the edit run; in the other models the argument is the string. Arg.Behaves is the condition of C62 for callbacks: no panics, no guards kept, gap buffers not corrupted. C104_insert and C104_replace are for buffers without a callback and without an open group; what callbacks add is C62 and C66."
 },
 "C105": {
  "note": "Bytes of the strings in the operations, not the capacity of vectors or of strings (String::from and read allocate at least these bytes). The values are those of the model: Strings are moved or cloned into the operations once. adds uses the API function read for deletions; C105_deleted relates it to the text (buffers with Holds)."
 },
 "C106": {
  "note": "Rust's ownership rules exclude use after free; here it follows from the explicit clones and drops. Freed cells are not reused, so that they can be told apart. RefCell borrows are those of C62-C65 and C84; callbacks here use what they have captured but do not edit (C66, C67, C74 have those that do). Workspaces are vectors of buffers: closing is the drop of a buffer. Cycles cannot be built, because a gap buffer holds no pointers."
 },
 "C107": {
  "note": "Model/TokenUnwind is the iterator again with the state that an unwound call leaves; `boom` picks the values of the highlighter that are panics, the others are errors. Spec/TokenUnwind: `goRun` lists token, error or panic of each call; `cautious` is the highlighter whose parser does not report the offsets that cannot be cut at. C107_same: a call that returns is that of the other model, so C36, C37, C48, C101-C103 speak about it. A panic in `new` leaves no iterator."
 },
 "C108": {
  "note": "Counts the bytes given to String::from_utf8_lossy and the iterations of the loops of find_offset (Model/Reading, proved equal to the functions without counter). What the iterator over clusters looks at inside of one step, and the copies that from_utf8_lossy and into_owned make, are not counted. C108_exact is for every state that calls of a new gap buffer lead to, in terms of the two halves (Spec/Zipper)."
 },
 "C109": {
  "note": "Model/PathStr is std::path::Components on Unix (parse_next_component and its counterpart from the back, trim_left, trim_right, as_path), read from the documentation and source of std as remembered, since std is not part of /repo. Equality of paths is equality of the lists of components. C109_workspace connects it with the main model, which begins with components."
 },
 "C110": {
  "note": "Model/Guarded: the functions of Model/Buffer with the kind of guard that is held of the buffer's cell, and the state at the moment of a panic. One equation (C110_exact) gives every call under every guard; C110_goes_on discharges its hypothesis for every buffer that a program can have. C110_cells ties the model to the one with cells and borrow flags (Model/Shared): there the same calls panic and the others do the same. That data() panics under an exclusive guard is C62_guards. Buffer and cursor use one cell (not so after an assignment to buffer.cursor, C84); callbacks do not panic here (C90). Taking a second guard is code of the caller and not modelled: a program drops its guards before it takes another one."
 },
 "C111": {
  "note": "Counts as C108 does: the bytes given to String::from_utf8_lossy and the iterations of the loops of find_offset. What lines() and graphemes() look at in the strings that to_string returned is not counted, nor are copies. Model/BufferReading threads the counters through every function of the cursor and the buffer; C111_exact says both that the results are those of the functions without counters and what the counters are, for every state that calls lead to, in terms of the document of recipes of C68 (Spec/Recipe). Undo and redo: the bound is in the strings of the step, the exact number is in C111_exact."
 },
 "C112": {
  "note": "Spec/Walk says what the keys do in terms of a list of numbers; C27–C29 say it of single movements and of vertical ones. In texts with CRLF positions and lines disagree (C51)."
 },
 "C113": {
  "note": "Lines as `splitNl` gives them and the result as strings (`indented`, `outdented`); ordinary text is any set of strings whose clusters never merge (`Closed`), shown for the Unicode rules of every table. `C113_outdent` needs every named line to be long enough for all the deletions on it: otherwise the end of the range does not exist, and `C113_short` says what is deleted for good."
 },
 "C114": {
  "note": "What `derive(Debug)` writes through `core::fmt::builders` (`Model/Debug`); `Readable` in `Spec/Debug` is all the specification there is besides the literal output in `C114_format`. The `Debug` of `ScopeStack` is a parameter. Width, fill and hexadecimal flags are not modelled."
 },
 "C115": {
  "note": "Lines as `splitNl` gives them, the result as a list of strings (`spliced`). As in C113 the end of the deleted range is the number of clusters of the last line. `C115_rearrange` needs a newline to be ordinary, which the case beside it shows for the Unicode rules."
 },
 "C116": {
  "note": "The crate always begins at the first line with a new `ParseState`; `Highlighter.resume` is what an application does that drives the parser itself. States are given by `lastState`, parsing line by line without the iterator. Line numbers are those of tokens, which count every newline character; `beforeLine` in `C116_cached` counts lines as positions do (they differ for CRLF, C51)."
 },
 "C117": {
  "note": "`rescues` lists the movements that bring a cursor back; Spec/Stray says what every movement does to any cursor in terms of line lengths (C112 says it of cursors in the text). The cursor is any at all, as its position is a public field; the case of undo is the example `lostSession`. In texts with CRLF positions and lines disagree (C51)."
 },
 "C118": {
  "note": "Lines are those between newlines (`splitNl`); C30 says which hits there are. An occurrence that begins or ends inside of a cluster (an accent, say) has no position at all, and the theorem on columns says nothing of it."
 } ,
 "C119": {
  "note": "Model/Convert: the two generic functions with unwinding, on top of Model/Unwind (C90), which says what panics of the callback leave. Conversions that edit buffers are C104. Conversions that disagree (`as_ref` and `into` giving different strings) are excluded by `Agrees` in C119_converted and C119_session, and allowed in C119_untouched."
 }
}
