{
 "claims": [
  {
   "property": "C01",
   "status": "proved",
   "theorems": [
    "Scribe.Props.C01_no_panic",
    "Scribe.Props.C01_no_panic_uax29"
   ],
   "note": "All call sequences, positions, strings, allocators and segmenters satisfying the laws; C01_no_panic_uax29 instantiates it at the full UAX #29 automaton for any table. Arithmetic is unbounded with checked subtraction here; overflow is C58."
  },
  {
   "property": "C02",
   "status": "proved",
   "theorems": [
    "Scribe.Props.C02_contents"
   ],
   "note": "All call sequences. The bytes handed out by the allocator are arbitrary."
  },
  {
   "property": "C03",
   "status": "proved",
   "theorems": [
    "Scribe.Props.C03_insert",
    "Scribe.Props.C03_insert_again"
   ],
   "note": "Hypothesis Holds: the gap lies on a cluster boundary of the text. C03_insert_again shows that an insertion that merges no clusters preserves it; without it the claim is false (C55), and C45 is what remains."
  },
  {
   "property": "C04",
   "status": "proved",
   "theorems": [
    "Scribe.Props.C04_insert_out_of_bounds"
   ],
   "note": "Hypothesis Holds (see C03)."
  },
  {
   "property": "C05",
   "status": "proved",
   "theorems": [
    "Scribe.Props.C05_delete",
    "Scribe.Props.C05_delete_swapped",
    "Scribe.Props.C05_delete_again"
   ],
   "note": "Hypothesis Holds (see C03); preserved by deletions that merge no clusters (C05_delete_again)."
  },
  {
   "property": "C06",
   "status": "proved",
   "theorems": [
    "Scribe.Props.C06_delete_clips"
   ],
   "note": "Hypothesis Holds (see C03)."
  },
  {
   "property": "C07",
   "status": "proved",
   "theorems": [
    "Scribe.Props.C07_read"
   ],
   "note": "Hypothesis Holds (see C03). None exactly when one of the ends does not exist."
  },
  {
   "property": "C08",
   "status": "proved",
   "theorems": [
    "Scribe.Props.C08_in_bounds",
    "Scribe.Props.C08_in_bounds_lines"
   ],
   "note": "Hypothesis Holds. A CRLF cluster is not a newline cluster (C51); C08_in_bounds_lines is the line/column form for text without CR."
  },
  {
   "property": "C09",
   "status": "proved",
   "theorems": [
    "Scribe.Props.C09_gap_unobservable"
   ],
   "note": "For call sequences that merge no clusters (a decidable condition on the texts alone); the general claim is false (C55)."
  },
  {
   "property": "C10",
   "status": "proved",
   "theorems": [
    "Scribe.Props.C10_positions_ordered"
   ],
   "note": "Hypothesis Holds."
  },
  {
   "property": "C11",
   "status": "proved",
   "theorems": [
    "Scribe.Props.C11_read_back"
   ],
   "note": "Hypothesis Holds; insertion without CRLF that merges no clusters."
  },
  {
   "property": "C12",
   "status": "proved",
   "theorems": [
    "Scribe.Props.C12_undo_reverses"
   ],
   "note": "For buffers reached by clean histories; the conditions are needed (C50, C52, C55)."
  },
  {
   "property": "C13",
   "status": "proved",
   "theorems": [
    "Scribe.Props.C13_snapshot_history",
    "Scribe.Props.C13_undo_everything",
    "Scribe.Props.C13_undo_redo_k",
    "Scribe.Props.C13_undo_edits"
   ],
   "note": "All clean call sequences; ordinary text needs no conditions (C49)."
  },
  {
   "property": "C14",
   "status": "proved",
   "theorems": [
    "Scribe.Props.C14_undo_redo",
    "Scribe.Props.C14_redo_undo"
   ],
   "note": "For buffers reached by clean histories, no open group."
  },
  {
   "property": "C15",
   "status": "proved",
   "theorems": [
    "Scribe.Props.C15_edit_clears_redo",
    "Scribe.Props.C15_group_clears_redo"
   ],
   "note": "For every state, clean or not."
  },
  {
   "property": "C16",
   "status": "proved",
   "theorems": [
    "Scribe.Props.C16_group_is_one_step",
    "Scribe.Props.C16_empty_group"
   ],
   "note": "Clean edits inside the group; C16_empty_group for every state."
  },
  {
   "property": "C17",
   "status": "proved",
   "theorems": [
    "Scribe.Props.C17_undo_open_group",
    "Scribe.Props.C17_undo_empty_group"
   ],
   "note": "Clean edits inside the group; C17_undo_empty_group for every state."
  },
  {
   "property": "C18",
   "status": "proved",
   "theorems": [
    "Scribe.Props.C18_unmodified_is_on_disk",
    "Scribe.Props.C18_fresh"
   ],
   "note": "Clean histories in which save and reload happen outside groups; a save inside a group is a counterexample (C53)."
  },
  {
   "property": "C19",
   "status": "proved",
   "theorems": [
    "Scribe.Props.C19_edits_undone",
    "Scribe.Props.C19_mark_is_tracked",
    "Scribe.Props.C19_edit_modifies"
   ],
   "note": "C19_edit_modifies for every state; C19_mark_is_tracked for buffers reached by clean histories."
  },
  {
   "property": "C20",
   "status": "proved",
   "theorems": [
    "Scribe.Props.C20_save",
    "Scribe.Props.C20_save_succeeds",
    "Scribe.Props.C20_save_outcome"
   ],
   "note": "All outcomes of File::create and write (short, interrupted, failing). Assumes that nobody else writes to the file during the call."
  },
  {
   "property": "C21",
   "status": "proved",
   "theorems": [
    "Scribe.Props.C21_crash_points",
    "Scribe.Props.C21_after_crash",
    "Scribe.Props.C21_create_fails",
    "Scribe.Props.C21_not_atomic"
   ],
   "note": "All crash points. File::create truncates in one step; each write call appends in one step."
  },
  {
   "property": "C22",
   "status": "proved",
   "theorems": [
    "Scribe.Props.C22_load_saved",
    "Scribe.Props.C22_save_loaded",
    "Scribe.Props.C22_invalid_refused"
   ],
   "note": "All texts and byte strings; strict UTF-8 decoding as std::str::from_utf8."
  },
  {
   "property": "C23",
   "status": "proved",
   "theorems": [
    "Scribe.Props.C23_replace"
   ],
   "note": "For every state whose contents can be read (all reachable ones, C47); the cursor positions are those of the new contents."
  },
  {
   "property": "C24",
   "status": "proved",
   "theorems": [
    "Scribe.Props.C24_reload",
    "Scribe.Props.C24_reload_can_be_undone"
   ],
   "note": "For every readable state."
  },
  {
   "property": "C25",
   "status": "proved",
   "theorems": [
    "Scribe.Props.C25_callback_covers_changes",
    "Scribe.Props.C25_no_callback"
   ],
   "note": "For buffers reached by clean histories and clean calls."
  },
  {
   "property": "C26",
   "status": "proved",
   "theorems": [
    "Scribe.Props.C26_move_to",
    "Scribe.Props.C26_move_to_text",
    "Scribe.Props.C26_moves_stay_in_bounds"
   ],
   "note": "C26_move_to and C26_moves_stay_in_bounds for every reachable gap buffer (in_bounds as the API reports it); C26_move_to_text relates it to the text under Holds."
  },
  {
   "property": "C27",
   "status": "proved",
   "theorems": [
    "Scribe.Props.C27_vertical",
    "Scribe.Props.C27_vertical_return",
    "Scribe.Props.C27_new_cursor",
    "Scribe.Props.C27_down_up"
   ],
   "note": "Hypotheses Holds and no CR in the text (C51 shows why)."
  },
  {
   "property": "C28",
   "status": "proved",
   "theorems": [
    "Scribe.Props.C28_left",
    "Scribe.Props.C28_right",
    "Scribe.Props.C28_start",
    "Scribe.Props.C28_end"
   ],
   "note": "Hypotheses Holds and, for the line ends, no CR in the text."
  },
  {
   "property": "C29",
   "status": "proved",
   "theorems": [
    "Scribe.Props.C29_first_line",
    "Scribe.Props.C29_last_line"
   ],
   "note": "Hypotheses Holds and no CR in the text."
  },
  {
   "property": "C30",
   "status": "proved",
   "theorems": [
    "Scribe.Props.C30_search",
    "Scribe.Props.C30_search_text",
    "Scribe.Props.C30_search_positions"
   ],
   "note": "Offsets found are byte offsets in the line (as the code computes them), which are positions only when every cluster is a single byte; C30_search_positions."
  },
  {
   "property": "C31",
   "status": "proved",
   "theorems": [
    "Scribe.Props.C31_line_count",
    "Scribe.Props.C31_line_exists"
   ],
   "note": "C31_line_count for every state; C31_line_exists for text without CR."
  },
  {
   "property": "C32",
   "status": "proved",
   "theorems": [
    "Scribe.Props.C32_position_order",
    "Scribe.Props.C32_range"
   ],
   "note": "No hypotheses."
  },
  {
   "property": "C33",
   "status": "proved",
   "theorems": [
    "Scribe.Props.C33_line_range"
   ],
   "note": "No hypotheses; arithmetic at usize::MAX is C61."
  },
  {
   "property": "C34",
   "status": "proved",
   "theorems": [
    "Scribe.Props.C34_distance",
    "Scribe.Props.C34_distance_is_extent"
   ],
   "note": "Distances are in bytes (as the code computes them); C34_distance_is_extent for clusters of one byte."
  },
  {
   "property": "C35",
   "status": "proved",
   "theorems": [
    "Scribe.Props.C35_line_iterator"
   ],
   "note": "No hypotheses."
  },
  {
   "property": "C36",
   "status": "proved",
   "theorems": [
    "Scribe.Props.C36_tokens_are_lossless",
    "Scribe.Props.C36_no_failure"
   ],
   "note": "Any highlighter (parser, scope stack, both may fail) whose event offsets are character boundaries of the line; without that contract the slices panic."
  },
  {
   "property": "C37",
   "status": "proved",
   "theorems": [
    "Scribe.Props.C37_token_positions",
    "Scribe.Props.C37_positions_in_buffer"
   ],
   "note": "Same contract as C36."
  },
  {
   "property": "C38",
   "status": "proved",
   "theorems": [
    "Scribe.Props.C38_workspace_is_a_list",
    "Scribe.Props.C38_results"
   ],
   "note": "All call sequences, including arbitrary changes of the current buffer through the public field that leave a buffer in it. Taking the buffer out of the field: C76."
  },
  {
   "property": "C39",
   "status": "proved",
   "theorems": [
    "Scribe.Props.C39_others_untouched",
    "Scribe.Props.C39_coming_back"
   ],
   "note": "All call sequences."
  },
  {
   "property": "C40",
   "status": "proved",
   "theorems": [
    "Scribe.Props.C40_cycle"
   ],
   "note": "All reachable workspaces."
  },
  {
   "property": "C41",
   "status": "proved",
   "theorems": [
    "Scribe.Props.C41_ids_distinct",
    "Scribe.Props.C41_ids_never_reused"
   ],
   "note": "For callers that do not overwrite ids through the public fields. The counter is unbounded here."
  },
  {
   "property": "C42",
   "status": "proved",
   "theorems": [
    "Scribe.Props.C42_no_duplicates",
    "Scribe.Props.C42_open_selects",
    "Scribe.Props.C42_failed_open"
   ],
   "note": "For callers that open files only with open_buffer and do not overwrite paths; the path that is opened keeps its canonical form during one call."
  },
  {
   "property": "C43",
   "status": "proved",
   "theorems": [
    "Scribe.Props.C43_new",
    "Scribe.Props.C43_buffer_paths",
    "Scribe.Props.C43_relative"
   ],
   "note": "All reachable workspaces; paths as lists of components."
  },
  {
   "property": "C44",
   "status": "proved",
   "theorems": [
    "Scribe.Props.C44_add_syntax",
    "Scribe.Props.C44_tokens",
    "Scribe.Props.C44_update_syntax"
   ],
   "note": "Any syntax set. C44_tokens for callers that do not take the syntax away through the public field."
  },
  {
   "property": "C45",
   "status": "proved",
   "theorems": [
    "Scribe.Props.C45_contiguous"
   ],
   "note": "No condition on clusters."
  },
  {
   "property": "C46",
   "status": "proved",
   "theorems": [
    "Scribe.Props.C46_cursor_stays_in_bounds",
    "Scribe.Props.C46_always_in_bounds"
   ],
   "note": "Clean calls; C46_always_in_bounds for whole sessions of such calls."
  },
  {
   "property": "C47",
   "status": "proved",
   "theorems": [
    "Scribe.Props.C47_no_panic"
   ],
   "note": "No condition at all on the calls."
  },
  {
   "property": "C48",
   "status": "proved",
   "theorems": [
    "Scribe.Props.C48_token_scopes",
    "Scribe.Props.C48_token_scopes_sorted"
   ],
   "note": "Same contract as C36; C48_token_scopes_sorted for parsers that emit events in order."
  },
  {
   "property": "C49",
   "status": "proved",
   "theorems": [
    "Scribe.Props.C49_ordinary_clusters",
    "Scribe.Props.C49_gap_buffer",
    "Scribe.Props.C49_ordinary_is_clean",
    "Scribe.Props.C49_editing_session"
   ],
   "note": "C49_gap_buffer and C49_editing_session for any closed set of clusters; C49_ordinary_clusters shows that ordinary clusters of the UAX #29 automaton are one, for any table."
  },
  {
   "property": "C50",
   "status": "proved",
   "theorems": [
    "Scribe.Props.C50_clipped_delete_not_undone",
    "Scribe.Props.C50_clipped_delete_removes"
   ],
   "note": "A finding: the theorem describes what the code does."
  },
  {
   "property": "C51",
   "status": "proved",
   "theorems": [
    "Scribe.Props.C51_crlf_lines_do_not_exist",
    "Scribe.Props.C51_cannot_move_down",
    "Scribe.Props.C51_movement"
   ],
   "note": "A finding: the theorem describes what the code does."
  },
  {
   "property": "C52",
   "status": "proved",
   "theorems": [
    "Scribe.Props.C52_crlf_undo_destroys"
   ],
   "note": "A finding: the theorem describes what the code does."
  },
  {
   "property": "C53",
   "status": "proved",
   "theorems": [
    "Scribe.Props.C53_pending_edits"
   ],
   "note": "A finding: the theorem describes what the code does, in every state."
  },
  {
   "property": "C54",
   "status": "proved",
   "theorems": [
    "Scribe.Props.C54_ineffective_edits_count"
   ],
   "note": "A finding: the theorem describes what the code does."
  },
  {
   "property": "C55",
   "status": "proved",
   "theorems": [
    "Scribe.Props.C55_gap_observable",
    "Scribe.Props.C55_mark_undo",
    "Scribe.Props.C55_accent_undo"
   ],
   "note": "Why C09 and C12 exclude cluster-merging edits: what exactly happens instead."
  },
  {
   "property": "C56",
   "status": "proved",
   "theorems": [
    "Scribe.Props.C56_bookkeeping"
   ],
   "note": "For every state."
  },
  {
   "property": "C57",
   "status": "proved",
   "theorems": [
    "Scribe.Props.C57_new_buffer_modified"
   ],
   "note": "For every call sequence."
  },
  {
   "property": "C58",
   "status": "proved",
   "theorems": [
    "Scribe.Machine.C58_gap_buffer",
    "Scribe.Machine.C58_refused",
    "Scribe.Machine.C58_no_arithmetic_panic"
   ],
   "note": "Machine arithmetic of any width, debug and release; the excluded case is C60. C58_refused: a session is stopped exactly when its last vector is too long (vectors never shrink in a gap buffer)."
  },
  {
   "property": "C59",
   "status": "proved",
   "theorems": [
    "Scribe.Machine.C59_buffer",
    "Scribe.Machine.C59_refused",
    "Scribe.Machine.C59_no_arithmetic_panic",
    "Scribe.Machine.C59_line_count"
   ],
   "note": "Machine arithmetic of any width, debug and release. C59_refused: exactly when some vector on the way is too long."
  },
  {
   "property": "C60",
   "status": "proved",
   "theorems": [
    "Scribe.Machine.C60_last_line_number"
   ],
   "note": "A finding: the theorem describes what the code does."
  },
  {
   "property": "C61",
   "status": "proved",
   "theorems": [
    "Scribe.Machine.C61_positions",
    "Scribe.Machine.C61_inverted"
   ],
   "note": "Machine arithmetic of any width, debug and release."
  },
  {
   "property": "C62",
   "status": "proved",
   "theorems": [
    "Scribe.Shared.C62_no_panic",
    "Scribe.Shared.C62_guards",
    "Scribe.Shared.C62_readers_allowed"
   ],
   "note": "Rc/RefCell explicit; the callback is an arbitrary function on the heap that does not panic, keep guards or corrupt gap buffers by itself."
  },
  {
   "property": "C63",
   "status": "proved",
   "theorems": [
    "Scribe.Shared.C63_by_value",
    "Scribe.Shared.C63_by_value_new",
    "Scribe.Shared.C63_callback_sees"
   ],
   "note": "Rc/RefCell explicit; justifies modelling the gap buffer by value in C12-C61."
  },
  {
   "property": "C64",
   "status": "proved",
   "theorems": [
    "Scribe.Shared.C64_independent"
   ],
   "note": "Rc/RefCell explicit."
  },
  {
   "property": "C65",
   "status": "proved",
   "theorems": [
    "Scribe.Shared.C65_clone_follows",
    "Scribe.Shared.C65_clone_goes_stale"
   ],
   "note": "Rc/RefCell explicit. For buffers made through the API by any calls."
  },
  {
   "property": "C66",
   "status": "proved",
   "theorems": [
    "Scribe.Shared.C66_undo_takes_range",
    "Scribe.Shared.C66_not_undone",
    "Scribe.Shared.C66_reentrant_edit_not_undone"
   ],
   "note": "The theorems describe what the code does (a finding). C66_undo_takes_range: any callback, any state of the buffer without an open group; the callback is removed before the undo. C66_reentrant_edit_not_undone is the older statement of existence, now a case of C66_not_undone."
  },
  {
   "property": "C67",
   "status": "proved",
   "theorems": [
    "Scribe.Props.C67_zipper",
    "Scribe.Props.C67_memory"
   ],
   "note": "No condition on the calls."
  },
  {
   "property": "C68",
   "status": "proved",
   "theorems": [
    "Scribe.Props.C68_recipes"
   ],
   "note": "No condition on the calls; numbers unbounded as in the rest of the main model (see C59)."
  },
  {
   "property": "C69",
   "status": "proved",
   "theorems": [
    "Scribe.Props.C69_edits_leave_cursor",
    "Scribe.Props.C69_typing_lost"
   ],
   "note": "A finding: describes what the code does."
  },
  {
   "property": "C70",
   "status": "proved",
   "theorems": [
    "Scribe.Props.C70_token_count",
    "Scribe.Props.C70_empty_lexemes",
    "Scribe.Props.C70_fused",
    "Scribe.Props.C70_never_panics",
    "Scribe.Props.C70_not_fused_after_error"
   ],
   "note": "Event offsets at character boundaries, as for C36. The last theorem is a finding."
  },
  {
   "property": "C71",
   "status": "proved",
   "theorems": [
    "Scribe.Props.C71_scope_of_every_byte"
   ],
   "note": "Event offsets at character boundaries, as for C36."
  },
  {
   "property": "C72",
   "status": "proved",
   "theorems": [
    "Scribe.Machine.C72_lines",
    "Scribe.Machine.C72_tokens"
   ],
   "note": "Machine arithmetic of any width, debug and release. Any parser and any event offsets."
  },
  {
   "property": "C73",
   "status": "proved",
   "theorems": [
    "Scribe.Machine.C73_workspace",
    "Scribe.Machine.C73_results",
    "Scribe.Machine.C73_ids_collide"
   ],
   "note": "Machine arithmetic of any width, debug and release. The second theorem is a finding. C73_results: the returned values as well."
  },
  {
   "property": "C74",
   "status": "proved",
   "theorems": [
    "Scribe.Props.C74_program",
    "Scribe.Props.C74_buffers"
   ],
   "note": "Combines the exact document of C68 with the workspace of C38. The file system may change between any two accesses."
  },
  {
   "property": "C75",
   "status": "proved",
   "theorems": [
    "Scribe.Props.C75_never_read",
    "Scribe.Props.C75_stale"
   ],
   "note": "Copying of the old block by the allocator is not a use. The documented contract of set_len (elements initialised) is nevertheless broken by the code."
  },
  {
   "property": "C76",
   "status": "proved",
   "theorems": [
    "Scribe.Props.C76_fields",
    "Scribe.Props.C76_taken",
    "Scribe.Props.C76_stray_panics",
    "Scribe.Props.C76_taking_is_safe"
   ],
   "note": "The second and third theorem are findings."
  },
  {
   "property": "C77",
   "status": "proved",
   "theorems": [
    "Scribe.Props.C77_rules",
    "Scribe.Props.C77_unique"
   ],
   "note": "The classes of characters are a parameter; that the crate uses the tables of the current Unicode version is assumed."
  },
  {
   "property": "C78",
   "status": "proved",
   "theorems": [
    "Scribe.Props.C78_read",
    "Scribe.Props.C78_delete",
    "Scribe.Props.C78_undo"
   ],
   "note": "Text without CR (for text with CRLF see C51); the gap on a cluster boundary. That the last line is never read and its deletion never undone are findings."
  },
  {
   "property": "C79",
   "status": "proved",
   "theorems": [
    "Scribe.Props.C79_unmodified_is_on_disk",
    "Scribe.Props.C79_one_buffer_per_file",
    "Scribe.Props.C79_reopen",
    "Scribe.Props.C79_failed_save",
    "Scribe.Props.C79_hard_links"
   ],
   "note": "Careful programs (Spec/Editor): clean edits as in C12; saves without pending edits, reloads without an open group; a save that emptied the file succeeds; new paths are canonical and not those of another buffer. The directory tree does not change and has no hard links; nobody else writes. C79_failed_save and C79_hard_links show what happens otherwise."
  },
  {
   "property": "C80",
   "status": "proved",
   "theorems": [
    "Scribe.Props.C80_memory"
   ],
   "note": "Growth policy of Vec is a hypothesis (Spec.Doubling; the allocator vec satisfies it). The reservation sees the size of the block."
  },
  {
   "property": "C81",
   "status": "proved",
   "theorems": [
    "Scribe.Props.C81_counter",
    "Scribe.Props.C81_call",
    "Scribe.Props.C81_exact",
    "Scribe.Props.C81_typing"
   ],
   "note": "Counts iterations of the loops of move_gap and write_to_gap, and the old block for a reallocation (Model/Cost, proved equal to the functions without counter). The lookup of positions, which scans the text, is not counted here (see C108). Typing: positions are those of the gap (as in C67)."
  },
  {
   "property": "C82",
   "status": "proved",
   "theorems": [
    "Scribe.Props.C82_same",
    "Scribe.Props.C82_reload",
    "Scribe.Props.C82_open",
    "Scribe.Props.C82_save",
    "Scribe.Props.C82_save_error",
    "Scribe.Props.C82_save_crash",
    "Scribe.Props.C82_new",
    "Scribe.Props.C82_no_missing_scope"
   ],
   "note": "Error kinds as values (Model/Errors): EmptyWorkspace, MissingPath, MissingScope, MissingSyntax, Io with kind, errors of the highlighter, of loading syntaxes. C82_same connects these functions to those without kinds. C82_open: workspaces reached by calls (Runs). Chained causes and backtraces of error_chain are not modelled. C82_save_error: with which error a save ends and what the file then holds, C82_save_crash: when it does not end."
  },
  {
   "property": "C83",
   "status": "proved",
   "theorems": [
    "Scribe.Props.C83_current",
    "Scribe.Props.C83_has_syntax",
    "Scribe.Props.C83_jump"
   ],
   "note": "Contract on highlighters as in C36 (offsets on character boundaries). C83_jump has the conditions of C37_positions_in_buffer, and that the lexeme ends on a cluster boundary; the gap is on a cluster boundary (Holds)."
  },
  {
   "property": "C84",
   "status": "proved",
   "theorems": [
    "Scribe.Shared.C84_no_panic",
    "Scribe.Shared.C84_edits_own_text",
    "Scribe.Shared.C84_moves_cursor_text",
    "Scribe.Shared.C84_replace_reattaches",
    "Scribe.Shared.C84_history_spared",
    "Scribe.Shared.C84_bookkeeping"
   ],
   "note": "On the model with pointers and borrow flags (Model/Shared). Programs: Spec/Direct `Act`; pointers are arbitrary existing ones, which covers every pointer a program could hold. Each step is a complete statement, so no guard is held across steps (C62_guards covers those). For C84_edits_own_text and C84_bookkeeping, callbacks only look. Examples show the consequences: a directly edited buffer reports being unmodified, and undo after a direct edit can remove text of the file."
  },
  {
   "property": "C85",
   "status": "proved",
   "theorems": [
    "Scribe.Props.C85_typing",
    "Scribe.Props.C85_undo_typing",
    "Scribe.Props.C85_erasing",
    "Scribe.Props.C85_deleting"
   ],
   "note": "Over any set of clusters that never merge and contain no CR (Closed); for the full UAX #29 automaton and any table, the ordinary clusters of C49. Keys: Spec/Typing (key, backspace), the calls an editor makes. C13_undo_edits is the general form of the undo part."
  },
  {
   "property": "C86",
   "status": "proved",
   "theorems": [
    "Scribe.Props.C86_elsewhere",
    "Scribe.Props.C86_replace_one",
    "Scribe.Props.C86_replace_all",
    "Scribe.Props.C86_undo"
   ],
   "note": "Over any set of single-byte clusters that never merge (ASCII without CR). needle without newline and CR, not empty. `substitute` (Spec/FindReplace) is str::replace. `C86_elsewhere` is the last sentence, for any clusters: with a cluster of more than one byte before the occurrence on its line, the reported position lies to its right, and the calls made there leave a non-empty beginning of the occurrence and all before it in the text."
  },
  {
   "property": "C87",
   "status": "proved",
   "theorems": [
    "Scribe.Props.C87_program",
    "Scribe.Props.C87_only_saves",
    "Scribe.Props.C87_files"
   ],
   "note": "Spec/Desktop: the documents of C74 with a disk; `written` says how many bytes a list of write results writes. Without the care that C79 asks for. A program that continues after a crash of `save` is included, which does no harm. The results of the calls are not part of it (C20, C24, C74, C82)."
  },
  {
   "property": "C88",
   "status": "proved",
   "theorems": [
    "Scribe.Props.C88_backward",
    "Scribe.Props.C88_forward",
    "Scribe.Props.C88_undo"
   ],
   "note": "Over any closed set of ordinary clusters (no CR, marks or others that merge). `Piece` (Spec/Batch): text kept, text replaced, replacement; `source` and `target` are the two texts. An example shows that the order matters."
  },
  {
   "property": "C89",
   "status": "proved",
   "theorems": [
    "Scribe.Props.C89_cut_paste"
   ],
   "note": "Over any closed set of ordinary clusters. The place of insertion is given in the text without the stretch."
  },
  {
   "property": "C90",
   "status": "proved",
   "theorems": [
    "Scribe.Props.C90_goes_on",
    "Scribe.Props.C90_returned",
    "Scribe.Props.C90_quiet",
    "Scribe.Props.C90_unwound_edit",
    "Scribe.Props.C90_only_edits",
    "Scribe.Props.C90_unwound_undo",
    "Scribe.Props.C90_unwound_redo",
    "Scribe.Props.C90_reports"
   ],
   "note": "Model/Unwind: the functions of Model/Buffer with the state at the moment of a panic. `fate` says which calls of the callback panic. Panics of the callback inside `replace_content` happen after the new contents are in place. A callback that itself changes the buffer is C66. C90_reports: during one call only the last report can be the one that panics; after it nothing more is reported."
  },
  {
   "property": "C91",
   "status": "proved",
   "theorems": [
    "Scribe.Props.C91_cache",
    "Scribe.Props.C91_tokens"
   ],
   "note": "Spec/Cache models the application (computing, forgetting, dropping on report); the value is any function of the text before the line. The calls must be clean and leave the callback set. Second part: lockstep of two token iterators; offsets of events are assumed to be character boundaries, as in C36."
  },
  {
   "property": "C92",
   "status": "proved",
   "theorems": [
    "Scribe.Props.C92_lines"
   ],
   "note": "Spec/Sheet is the editor of lines. It takes strings apart into rows with the segmenter and from then on has rows only. P is any set of clusters that stay as they are side by side (C49: the ordinary clusters, for every Unicode table) and have no carriage return. The callback is not part of it (C25, C91)."
  },
  {
   "property": "C93",
   "status": "proved",
   "theorems": [
    "Scribe.Props.C93_by_line",
    "Scribe.Props.C93_interleaving"
   ],
   "note": "In any reachable state holding ordinary text, in a group or not. The edits must be possible: the clusters to be deleted are on the line at the time, which depends only on the earlier edits of that line."
  },
  {
   "property": "C94",
   "status": "proved",
   "theorems": [
    "Scribe.Props.C94_byte_names",
    "Scribe.Props.C94_text_names",
    "Scribe.Props.C94_no_name",
    "Scribe.Props.C94_new"
   ],
   "note": "The path is a list of components; how Rust splits a string into components is C109. `Path::file_name` and `Path::extension` are modelled after std (Unix); the theorem states the result without their helpers."
  },
  {
   "property": "C95",
   "status": "proved",
   "theorems": [
    "Scribe.Props.C95_join",
    "Scribe.Props.C95_insert",
    "Scribe.Props.C95_delete",
    "Scribe.Props.C95_back",
    "Scribe.Props.C95_session"
   ],
   "note": "afterInsert and afterDelete are arithmetic on lines and offsets; the size of the inserted text is the position at its end (lines, clusters on the last line). In C95_session undo, redo, replace and reload give a mark up, as does the deletion of its cluster; C95_back is what is needed to keep it over the undo of an insertion."
  },
  {
   "property": "C96",
   "status": "proved",
   "theorems": [
    "Scribe.Props.C96_two",
    "Scribe.Props.C96_many"
   ],
   "note": "Ordinary text, as in C85 and C88: clusters that do not fuse. merged is defined from the two edits and the text, place by place, without the transformation; C96_many states convergence only (the merged text of several edits is what C96_two gives edit by edit). The transformed edits use positions and the sizes of inserted texts only."
  },
  {
   "property": "C97",
   "status": "proved",
   "theorems": [
    "Scribe.Props.C97_programs",
    "Scribe.Props.C97_unnoticed",
    "Scribe.Props.C97_files",
    "Scribe.Props.C97_overwrites"
   ],
   "note": "Calls of one program are not interrupted by others (as in C87: nobody else writes during a save). What others do is an arbitrary new disk; each step of a program may find another directory tree. The calls of C87 (Deed)."
  },
  {
   "property": "C98",
   "status": "proved",
   "theorems": [
    "Scribe.Props.C98_dialogue",
    "Scribe.Props.C98_same",
    "Scribe.Props.C98_same_plain"
   ],
   "note": "The calls of C87 and the questions of Ask. Errors are told apart as ok / error here, their kinds in C82; tokens is the text and syntax handed over, the tokens themselves are C36-C40. A save that crashes ends the program; the conversation of the model goes on, which only adds cases. C98_same asks that every string passed in or read is made of a closed set of clusters; C98_same_plain replaces that by a condition on the program's strings and the initial files."
  },
  {
   "property": "C99",
   "status": "proved",
   "theorems": [
    "Scribe.Props.C99_exact",
    "Scribe.Props.C99_alone",
    "Scribe.Props.C99_fragments",
    "Scribe.Props.C99_same",
    "Scribe.Props.C99_sole",
    "Scribe.Props.C99_mixed",
    "Scribe.Props.C99_hole"
   ],
   "note": "File handles as in POSIX: each save writes at its own offset, what is skipped is filled with zeros, File::create truncates. Files are not removed or renamed meanwhile. Each save is a call in a program of its own; C99_alone shows that one save alone is FileBuf.save (C20, C21)."
  },
  {
   "property": "C100",
   "status": "proved",
   "theorems": [
    "Scribe.Props.C100_crlf_clusters",
    "Scribe.Props.C100_gap_buffer",
    "Scribe.Props.C100_is_clean",
    "Scribe.Props.C100_editing_session",
    "Scribe.Props.C100_delete_crlf",
    "Scribe.Props.C100_paste_undo"
   ],
   "note": "Ordinary clusters as in C49, none of which contains CR; a lone CR in the file is excluded. Insertions contain no CRLF, whole contents may. C100_is_clean gives the assumptions of C12-C19 and C25 for groups and delete_range too. C100_paste_undo generalises C52 (which is the case without bare newlines)."
  },
  {
   "property": "C101",
   "status": "proved",
   "theorems": [
    "Scribe.Props.C101_stream",
    "Scribe.Props.C101_error",
    "Scribe.Props.C101_current"
   ],
   "note": "Spec/Stream: `stream` works on the list of lines and splits them by bytes, without the iterator's state. Events need not be sorted. This is up to the first None; what the iterator does after an error is C70 and C103. C36 allowed any error as soon as the highlighter can fail somewhere, C101_error says when and which."
  },
  {
   "property": "C102",
   "status": "proved",
   "theorems": [
    "Scribe.Props.C102_any",
    "Scribe.Props.C102_prefix",
    "Scribe.Props.C102_fit",
    "Scribe.Props.C102_contract",
    "Scribe.Props.C102_current"
   ],
   "note": "No contract on offsets at all. Spec/Parser: `tokenRun` keeps what is left of the line, or that the offset is behind it. A panic ends the model of the iterator; catching it and going on is C107. C102_fit is C101 for a weaker contract, which the examples show to be close: two different offsets behind the end, or one inside of a character, panic."
  },
  {
   "property": "C103",
   "status": "proved",
   "theorems": [
    "Scribe.Props.C103_calls",
    "Scribe.Props.C103_first",
    "Scribe.Props.C103_pieces"
   ],
   "note": "Spec/Resume: `callRun` lists the outcome of each call (token or error); `seen` is what the caller sees of it. Up to a panic; going on after a caught one is C107. The state of the parser and of the scope stack after a failure is whatever the highlighter returns with it. C103_first ties it to C102, so to C101 and C36."
  },
  {
   "property": "C104",
   "status": "proved",
   "theorems": [
    "Scribe.Shared.C104_strings",
    "Scribe.Shared.C104_no_panic",
    "Scribe.Shared.C104_insert",
    "Scribe.Shared.C104_replace"
   ],
   "note": "Model/Caller: the two generic functions with the order in which the conversions, the reads of the contents and the edit run; in the other models the argument is the string. Arg.Behaves is the condition of C62 for callbacks: no panics, no guards kept, gap buffers not corrupted. C104_insert and C104_replace are for buffers without a callback and without an open group; what callbacks add is C62 and C66."
  },
  {
   "property": "C105",
   "status": "proved",
   "theorems": [
    "Scribe.Props.C105_ledger",
    "Scribe.Props.C105_still",
    "Scribe.Props.C105_without_undo",
    "Scribe.Props.C105_reload",
    "Scribe.Props.C105_deleted"
   ],
   "note": "Bytes of the strings in the operations, not the capacity of vectors or of strings (String::from and read allocate at least these bytes). The values are those of the model: Strings are moved or cloned into the operations once. adds uses the API function read for deletions; C105_deleted relates it to the text (buffers with Holds)."
  },
  {
   "property": "C106",
   "status": "proved",
   "theorems": [
    "Scribe.Props.C106_counts",
    "Scribe.Props.C106_no_leak",
    "Scribe.Props.C106_one_each",
    "Scribe.Props.C106_same",
    "Scribe.Props.C106_replace",
    "Scribe.Props.C106_made",
    "Scribe.Props.C106_edit",
    "Scribe.Props.C106_moved"
   ],
   "note": "Rust's ownership rules exclude use after free; here it follows from the explicit clones and drops. Freed cells are not reused, so that they can be told apart. RefCell borrows are those of C62-C65 and C84; callbacks here use what they have captured but do not edit (C66, C67, C74 have those that do). Workspaces are vectors of buffers: closing is the drop of a buffer. Cycles cannot be built, because a gap buffer holds no pointers."
  },
  {
   "property": "C107",
   "status": "proved",
   "theorems": [
    "Scribe.Props.C107_calls",
    "Scribe.Props.C107_same",
    "Scribe.Props.C107_forgotten",
    "Scribe.Props.C107_pieces"
   ],
   "note": "Model/TokenUnwind is the iterator again with the state that an unwound call leaves; `boom` picks the values of the highlighter that are panics, the others are errors. Spec/TokenUnwind: `goRun` lists token, error or panic of each call; `cautious` is the highlighter whose parser does not report the offsets that cannot be cut at. C107_same: a call that returns is that of the other model, so C36, C37, C48, C101-C103 speak about it. A panic in `new` leaves no iterator."
  },
  {
   "property": "C108",
   "status": "proved",
   "theorems": [
    "Scribe.Props.C108_same",
    "Scribe.Props.C108_exact",
    "Scribe.Props.C108_call",
    "Scribe.Props.C108_append",
    "Scribe.Props.C108_quadratic"
   ],
   "note": "Counts the bytes given to String::from_utf8_lossy and the iterations of the loops of find_offset (Model/Reading, proved equal to the functions without counter). What the iterator over clusters looks at inside of one step, and the copies that from_utf8_lossy and into_owned make, are not counted. C108_exact is for every state that calls of a new gap buffer lead to, in terms of the two halves (Spec/Zipper)."
  },
  {
   "property": "C109",
   "status": "proved",
   "theorems": [
    "Scribe.Props.C109_meaning",
    "Scribe.Props.C109_file_name",
    "Scribe.Props.C109_same",
    "Scribe.Props.C109_strip",
    "Scribe.Props.C109_trimmed",
    "Scribe.Props.C109_canonical",
    "Scribe.Props.C109_workspace"
   ],
   "note": "Model/PathStr is std::path::Components on Unix (parse_next_component and its counterpart from the back, trim_left, trim_right, as_path), read from the documentation and source of std as remembered, since std is not part of /repo. Equality of paths is equality of the lists of components. C109_workspace connects it with the main model, which begins with components."
  },
  {
   "property": "C110",
   "status": "proved",
   "theorems": [
    "Scribe.Props.C110_exact",
    "Scribe.Props.C110_goes_on",
    "Scribe.Props.C110_unwound",
    "Scribe.Props.C110_cells",
    "Scribe.Props.C110_twice"
   ],
   "note": "Model/Guarded: the functions of Model/Buffer with the kind of guard that is held of the buffer's cell, and the state at the moment of a panic. One equation (C110_exact) gives every call under every guard; C110_goes_on discharges its hypothesis for every buffer that a program can have. C110_cells ties the model to the one with cells and borrow flags (Model/Shared): there the same calls panic and the others do the same. That data() panics under an exclusive guard is C62_guards. Buffer and cursor use one cell (not so after an assignment to buffer.cursor, C84); callbacks do not panic here (C90). Taking a second guard is code of the caller and not modelled: a program drops its guards before it takes another one."
  },
  {
   "property": "C111",
   "status": "proved",
   "theorems": [
    "Scribe.Props.C111_exact",
    "Scribe.Props.C111_call",
    "Scribe.Props.C111_steps",
    "Scribe.Props.C111_end"
   ],
   "note": "Counts as C108 does: the bytes given to String::from_utf8_lossy and the iterations of the loops of find_offset. What lines() and graphemes() look at in the strings that to_string returned is not counted, nor are copies. Model/BufferReading threads the counters through every function of the cursor and the buffer; C111_exact says both that the results are those of the functions without counters and what the counters are, for every state that calls lead to, in terms of the document of recipes of C68 (Spec/Recipe). Undo and redo: the bound is in the strings of the step, the exact number is in C111_exact."
  },
  {
   "property": "C112",
   "status": "proved",
   "theorems": [
    "Scribe.Props.C112_walk",
    "Scribe.Props.C112_route",
    "Scribe.Props.C112_lengths"
   ],
   "note": "Spec/Walk says what the keys do in terms of a list of numbers; C27–C29 say it of single movements and of vertical ones. In texts with CRLF positions and lines disagree (C51)."
  },
  {
   "property": "C113",
   "status": "proved",
   "theorems": [
    "Scribe.Props.C113_indent",
    "Scribe.Props.C113_outdent",
    "Scribe.Props.C113_back",
    "Scribe.Props.C113_short"
   ],
   "note": "Lines as `splitNl` gives them and the result as strings (`indented`, `outdented`); ordinary text is any set of strings whose clusters never merge (`Closed`), shown for the Unicode rules of every table. `C113_outdent` needs every named line to be long enough for all the deletions on it: otherwise the end of the range does not exist, and `C113_short` says what is deleted for good."
  },
  {
   "property": "C114",
   "status": "proved",
   "theorems": [
    "Scribe.Props.C114_format",
    "Scribe.Props.C114_readable",
    "Scribe.Props.C114_one_line",
    "Scribe.Props.C114_many",
    "Scribe.Props.C114_text"
   ],
   "note": "What `derive(Debug)` writes through `core::fmt::builders` (`Model/Debug`); `Readable` in `Spec/Debug` is all the specification there is besides the literal output in `C114_format`. The `Debug` of `ScopeStack` is a parameter. Width, fill and hexadecimal flags are not modelled."
  },
  {
   "property": "C115",
   "status": "proved",
   "theorems": [
    "Scribe.Props.C115_replace",
    "Scribe.Props.C115_rearrange"
   ],
   "note": "Lines as `splitNl` gives them, the result as a list of strings (`spliced`). As in C113 the end of the deleted range is the number of clusters of the last line. `C115_rearrange` needs a newline to be ordinary, which the case beside it shows for the Unicode rules."
  },
  {
   "property": "C116",
   "status": "proved",
   "theorems": [
    "Scribe.Props.C116_resume",
    "Scribe.Props.C116_patch",
    "Scribe.Props.C116_states",
    "Scribe.Props.C116_cached"
   ],
   "note": "The crate always begins at the first line with a new `ParseState`; `Highlighter.resume` is what an application does that drives the parser itself. States are given by `lastState`, parsing line by line without the iterator. Line numbers are those of tokens, which count every newline character; `beforeLine` in `C116_cached` counts lines as positions do (they differ for CRLF, C51)."
  },
  {
   "property": "C117",
   "status": "proved",
   "theorems": [
    "Scribe.Props.C117_walk",
    "Scribe.Props.C117_key",
    "Scribe.Props.C117_below",
    "Scribe.Props.C117_beside",
    "Scribe.Props.C117_home"
   ],
   "note": "`rescues` lists the movements that bring a cursor back; Spec/Stray says what every movement does to any cursor in terms of line lengths (C112 says it of cursors in the text). The cursor is any at all, as its position is a public field; the case of undo is the example `lostSession`. In texts with CRLF positions and lines disagree (C51)."
  },
  {
   "property": "C118",
   "status": "proved",
   "theorems": [
    "Scribe.Props.C118_bounds",
    "Scribe.Props.C118_column",
    "Scribe.Props.C118_astray"
   ],
   "note": "Lines are those between newlines (`splitNl`); C30 says which hits there are. An occurrence that begins or ends inside of a cluster (an accent, say) has no position at all, and the theorem on columns says nothing of it."
  },
  {
   "property": "C119",
   "status": "proved",
   "theorems": [
    "Scribe.Props.C119_untouched",
    "Scribe.Props.C119_converted",
    "Scribe.Props.C119_unneeded",
    "Scribe.Props.C119_session"
   ],
   "note": "Model/Convert: the two generic functions with unwinding, on top of Model/Unwind (C90), which says what panics of the callback leave. Conversions that edit buffers are C104. Conversions that disagree (`as_ref` and `into` giving different strings) are excluded by `Agrees` in C119_converted and C119_session, and allowed in C119_untouched."
  }
 ]
}