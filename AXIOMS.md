# Axioms per theorem

Generated by `tools/axioms.py` with `#print axioms`.

| property | theorem | axioms |
|---|---|---|
| C01 | `Scribe.Props.C01_no_panic` | Classical.choice, Quot.sound, propext |
| C01 | `Scribe.Props.C01_no_panic_uax29` | Classical.choice, Quot.sound, propext |
| C02 | `Scribe.Props.C02_contents` | Classical.choice, Quot.sound, propext |
| C03 | `Scribe.Props.C03_insert` | Classical.choice, Quot.sound, propext |
| C03 | `Scribe.Props.C03_insert_again` | Classical.choice, Quot.sound, propext |
| C04 | `Scribe.Props.C04_insert_out_of_bounds` | Classical.choice, Quot.sound, propext |
| C05 | `Scribe.Props.C05_delete` | Classical.choice, Quot.sound, propext |
| C05 | `Scribe.Props.C05_delete_swapped` | Classical.choice, Quot.sound, propext |
| C05 | `Scribe.Props.C05_delete_again` | Classical.choice, Quot.sound, propext |
| C06 | `Scribe.Props.C06_delete_clips` | Classical.choice, Quot.sound, propext |
| C07 | `Scribe.Props.C07_read` | Classical.choice, Quot.sound, propext |
| C08 | `Scribe.Props.C08_in_bounds` | Classical.choice, Quot.sound, propext |
| C08 | `Scribe.Props.C08_in_bounds_lines` | Classical.choice, Quot.sound, propext |
| C09 | `Scribe.Props.C09_gap_unobservable` | Classical.choice, Quot.sound, propext |
| C10 | `Scribe.Props.C10_positions_ordered` | Classical.choice, Quot.sound, propext |
| C11 | `Scribe.Props.C11_read_back` | Classical.choice, Quot.sound, propext |
| C12 | `Scribe.Props.C12_undo_reverses` | Classical.choice, Quot.sound, propext |
| C13 | `Scribe.Props.C13_snapshot_history` | Classical.choice, Quot.sound, propext |
| C13 | `Scribe.Props.C13_undo_everything` | Classical.choice, Quot.sound, propext |
| C13 | `Scribe.Props.C13_undo_redo_k` | Classical.choice, Quot.sound, propext |
| C13 | `Scribe.Props.C13_undo_edits` | Classical.choice, Quot.sound, propext |
| C14 | `Scribe.Props.C14_undo_redo` | Classical.choice, Quot.sound, propext |
| C14 | `Scribe.Props.C14_redo_undo` | Classical.choice, Quot.sound, propext |
| C15 | `Scribe.Props.C15_edit_clears_redo` | Quot.sound, propext |
| C15 | `Scribe.Props.C15_group_clears_redo` | propext |
| C16 | `Scribe.Props.C16_group_is_one_step` | Classical.choice, Quot.sound, propext |
| C16 | `Scribe.Props.C16_empty_group` | none |
| C17 | `Scribe.Props.C17_undo_open_group` | Classical.choice, Quot.sound, propext |
| C17 | `Scribe.Props.C17_undo_empty_group` | propext |
| C18 | `Scribe.Props.C18_unmodified_is_on_disk` | Classical.choice, Quot.sound, propext |
| C18 | `Scribe.Props.C18_fresh` | Classical.choice, Quot.sound, propext |
| C19 | `Scribe.Props.C19_edits_undone` | Classical.choice, Quot.sound, propext |
| C19 | `Scribe.Props.C19_mark_is_tracked` | Classical.choice, Quot.sound, propext |
| C19 | `Scribe.Props.C19_edit_modifies` | Quot.sound, propext |
| C20 | `Scribe.Props.C20_save` | Classical.choice, Quot.sound, propext |
| C20 | `Scribe.Props.C20_save_succeeds` | Quot.sound, propext |
| C20 | `Scribe.Props.C20_save_outcome` | Classical.choice, Quot.sound, propext |
| C21 | `Scribe.Props.C21_crash_points` | Classical.choice, Quot.sound, propext |
| C21 | `Scribe.Props.C21_after_crash` | Classical.choice, Quot.sound, propext |
| C21 | `Scribe.Props.C21_create_fails` | propext |
| C21 | `Scribe.Props.C21_not_atomic` | Classical.choice, Quot.sound, propext |
| C22 | `Scribe.Props.C22_load_saved` | Classical.choice, Quot.sound, propext |
| C22 | `Scribe.Props.C22_save_loaded` | Classical.choice, Quot.sound, propext |
| C22 | `Scribe.Props.C22_invalid_refused` | Classical.choice, Quot.sound, propext |
| C23 | `Scribe.Props.C23_replace` | Classical.choice, Quot.sound, propext |
| C24 | `Scribe.Props.C24_reload` | Classical.choice, Quot.sound, propext |
| C24 | `Scribe.Props.C24_reload_can_be_undone` | Classical.choice, Quot.sound, propext |
| C25 | `Scribe.Props.C25_callback_covers_changes` | Classical.choice, Quot.sound, propext |
| C25 | `Scribe.Props.C25_no_callback` | Classical.choice, Quot.sound, propext |
| C26 | `Scribe.Props.C26_move_to` | Classical.choice, Quot.sound, propext |
| C26 | `Scribe.Props.C26_move_to_text` | Classical.choice, Quot.sound, propext |
| C26 | `Scribe.Props.C26_moves_stay_in_bounds` | Classical.choice, Quot.sound, propext |
| C27 | `Scribe.Props.C27_vertical` | Classical.choice, Quot.sound, propext |
| C27 | `Scribe.Props.C27_vertical_return` | Classical.choice, Quot.sound, propext |
| C27 | `Scribe.Props.C27_new_cursor` | Classical.choice, Quot.sound, propext |
| C27 | `Scribe.Props.C27_down_up` | Quot.sound, propext |
| C28 | `Scribe.Props.C28_left` | Classical.choice, Quot.sound, propext |
| C28 | `Scribe.Props.C28_right` | Classical.choice, Quot.sound, propext |
| C28 | `Scribe.Props.C28_start` | Classical.choice, Quot.sound, propext |
| C28 | `Scribe.Props.C28_end` | Classical.choice, Quot.sound, propext |
| C29 | `Scribe.Props.C29_first_line` | Classical.choice, Quot.sound, propext |
| C29 | `Scribe.Props.C29_last_line` | Classical.choice, Quot.sound, propext |
| C30 | `Scribe.Props.C30_search` | Classical.choice, Quot.sound, propext |
| C30 | `Scribe.Props.C30_search_text` | Classical.choice, Quot.sound, propext |
| C30 | `Scribe.Props.C30_search_positions` | Classical.choice, Quot.sound, propext |
| C31 | `Scribe.Props.C31_line_count` | Classical.choice, Quot.sound, propext |
| C31 | `Scribe.Props.C31_line_exists` | Classical.choice, Quot.sound, propext |
| C32 | `Scribe.Props.C32_position_order` | Classical.choice, Quot.sound, propext |
| C32 | `Scribe.Props.C32_range` | Classical.choice, Quot.sound, propext |
| C33 | `Scribe.Props.C33_line_range` | Classical.choice, Quot.sound, propext |
| C34 | `Scribe.Props.C34_distance` | Classical.choice, Quot.sound, propext |
| C34 | `Scribe.Props.C34_distance_is_extent` | Classical.choice, Quot.sound, propext |
| C35 | `Scribe.Props.C35_line_iterator` | Classical.choice, Quot.sound, propext |
| C36 | `Scribe.Props.C36_tokens_are_lossless` | Classical.choice, Quot.sound, propext |
| C36 | `Scribe.Props.C36_no_failure` | Classical.choice, Quot.sound, propext |
| C37 | `Scribe.Props.C37_token_positions` | Classical.choice, Quot.sound, propext |
| C37 | `Scribe.Props.C37_positions_in_buffer` | Classical.choice, Quot.sound, propext |
| C38 | `Scribe.Props.C38_workspace_is_a_list` | Classical.choice, Quot.sound, propext |
| C38 | `Scribe.Props.C38_results` | Classical.choice, Quot.sound, propext |
| C39 | `Scribe.Props.C39_others_untouched` | Classical.choice, Quot.sound, propext |
| C39 | `Scribe.Props.C39_coming_back` | Classical.choice, Quot.sound, propext |
| C40 | `Scribe.Props.C40_cycle` | Classical.choice, Quot.sound, propext |
| C41 | `Scribe.Props.C41_ids_distinct` | Classical.choice, Quot.sound, propext |
| C41 | `Scribe.Props.C41_ids_never_reused` | Classical.choice, Quot.sound, propext |
| C42 | `Scribe.Props.C42_no_duplicates` | Classical.choice, Quot.sound, propext |
| C42 | `Scribe.Props.C42_open_selects` | Classical.choice, Quot.sound, propext |
| C42 | `Scribe.Props.C42_failed_open` | Classical.choice, Quot.sound, propext |
| C43 | `Scribe.Props.C43_new` | propext |
| C43 | `Scribe.Props.C43_buffer_paths` | Classical.choice, Quot.sound, propext |
| C43 | `Scribe.Props.C43_relative` | propext |
| C44 | `Scribe.Props.C44_add_syntax` | Classical.choice, Quot.sound, propext |
| C44 | `Scribe.Props.C44_tokens` | Classical.choice, Quot.sound, propext |
| C44 | `Scribe.Props.C44_update_syntax` | Classical.choice, Quot.sound, propext |
| C45 | `Scribe.Props.C45_contiguous` | Classical.choice, Quot.sound, propext |
| C46 | `Scribe.Props.C46_cursor_stays_in_bounds` | Classical.choice, Quot.sound, propext |
| C46 | `Scribe.Props.C46_always_in_bounds` | Classical.choice, Quot.sound, propext |
| C47 | `Scribe.Props.C47_no_panic` | Classical.choice, Quot.sound, propext |
| C48 | `Scribe.Props.C48_token_scopes` | Classical.choice, Quot.sound, propext |
| C48 | `Scribe.Props.C48_token_scopes_sorted` | Classical.choice, Quot.sound, propext |
| C49 | `Scribe.Props.C49_ordinary_clusters` | Classical.choice, Quot.sound, propext |
| C49 | `Scribe.Props.C49_gap_buffer` | Classical.choice, Quot.sound, propext |
| C49 | `Scribe.Props.C49_ordinary_is_clean` | Classical.choice, Quot.sound, propext |
| C49 | `Scribe.Props.C49_editing_session` | Classical.choice, Quot.sound, propext |
| C50 | `Scribe.Props.C50_clipped_delete_not_undone` | Classical.choice, Quot.sound, propext |
| C50 | `Scribe.Props.C50_clipped_delete_removes` | Classical.choice, Quot.sound, propext |
| C51 | `Scribe.Props.C51_crlf_lines_do_not_exist` | Classical.choice, Quot.sound, propext |
| C51 | `Scribe.Props.C51_cannot_move_down` | Classical.choice, Quot.sound, propext |
| C51 | `Scribe.Props.C51_movement` | Classical.choice, Quot.sound, propext |
| C52 | `Scribe.Props.C52_crlf_undo_destroys` | Classical.choice, Quot.sound, propext |
| C53 | `Scribe.Props.C53_pending_edits` | Quot.sound, propext |
| C54 | `Scribe.Props.C54_ineffective_edits_count` | Classical.choice, Quot.sound, propext |
| C55 | `Scribe.Props.C55_gap_observable` | Classical.choice, Quot.sound, propext |
| C55 | `Scribe.Props.C55_mark_undo` | Classical.choice, Quot.sound, propext |
| C55 | `Scribe.Props.C55_accent_undo` | Classical.choice, Quot.sound, propext |
| C56 | `Scribe.Props.C56_bookkeeping` | Quot.sound, propext |
| C57 | `Scribe.Props.C57_new_buffer_modified` | Classical.choice, Quot.sound, propext |
| C58 | `Scribe.Machine.C58_gap_buffer` | Classical.choice, Quot.sound, propext |
| C58 | `Scribe.Machine.C58_refused` | Classical.choice, Quot.sound, propext |
| C58 | `Scribe.Machine.C58_no_arithmetic_panic` | Classical.choice, Quot.sound, propext |
| C59 | `Scribe.Machine.C59_buffer` | Classical.choice, Quot.sound, propext |
| C59 | `Scribe.Machine.C59_refused` | Classical.choice, Quot.sound, propext |
| C59 | `Scribe.Machine.C59_no_arithmetic_panic` | Classical.choice, Quot.sound, propext |
| C59 | `Scribe.Machine.C59_line_count` | Classical.choice, Quot.sound, propext |
| C60 | `Scribe.Machine.C60_last_line_number` | Classical.choice, Quot.sound, propext |
| C61 | `Scribe.Machine.C61_positions` | Quot.sound, propext |
| C61 | `Scribe.Machine.C61_inverted` | Quot.sound, propext |
| C62 | `Scribe.Shared.C62_no_panic` | Classical.choice, Quot.sound, propext |
| C62 | `Scribe.Shared.C62_guards` | Quot.sound, propext |
| C62 | `Scribe.Shared.C62_readers_allowed` | Quot.sound, propext |
| C63 | `Scribe.Shared.C63_by_value` | Classical.choice, Quot.sound, propext |
| C63 | `Scribe.Shared.C63_by_value_new` | Classical.choice, Quot.sound, propext |
| C63 | `Scribe.Shared.C63_callback_sees` | Quot.sound, propext |
| C64 | `Scribe.Shared.C64_independent` | Classical.choice, Quot.sound, propext |
| C65 | `Scribe.Shared.C65_clone_follows` | Classical.choice, Quot.sound, propext |
| C65 | `Scribe.Shared.C65_clone_goes_stale` | Classical.choice, Quot.sound, propext |
| C66 | `Scribe.Shared.C66_undo_takes_range` | Classical.choice, Quot.sound, propext |
| C66 | `Scribe.Shared.C66_not_undone` | Classical.choice, Quot.sound, propext |
| C66 | `Scribe.Shared.C66_reentrant_edit_not_undone` | Classical.choice, Quot.sound, propext |
| C67 | `Scribe.Props.C67_zipper` | Classical.choice, Quot.sound, propext |
| C67 | `Scribe.Props.C67_memory` | Classical.choice, Quot.sound, propext |
| C68 | `Scribe.Props.C68_recipes` | Classical.choice, Quot.sound, propext |
| C69 | `Scribe.Props.C69_edits_leave_cursor` | Classical.choice, Quot.sound, propext |
| C69 | `Scribe.Props.C69_typing_lost` | Classical.choice, Quot.sound, propext |
| C70 | `Scribe.Props.C70_token_count` | Classical.choice, Quot.sound, propext |
| C70 | `Scribe.Props.C70_empty_lexemes` | Classical.choice, Quot.sound, propext |
| C70 | `Scribe.Props.C70_fused` | Classical.choice, Quot.sound, propext |
| C70 | `Scribe.Props.C70_never_panics` | Classical.choice, Quot.sound, propext |
| C70 | `Scribe.Props.C70_not_fused_after_error` | Classical.choice, Quot.sound, propext |
| C71 | `Scribe.Props.C71_scope_of_every_byte` | Classical.choice, Quot.sound, propext |
| C72 | `Scribe.Machine.C72_lines` | Classical.choice, Quot.sound, propext |
| C72 | `Scribe.Machine.C72_tokens` | Classical.choice, Quot.sound, propext |
| C73 | `Scribe.Machine.C73_workspace` | Classical.choice, Quot.sound, propext |
| C73 | `Scribe.Machine.C73_results` | Classical.choice, Quot.sound, propext |
| C73 | `Scribe.Machine.C73_ids_collide` | Classical.choice, Quot.sound, propext |
| C74 | `Scribe.Props.C74_program` | Classical.choice, Quot.sound, propext |
| C74 | `Scribe.Props.C74_buffers` | Classical.choice, Quot.sound, propext |
| C75 | `Scribe.Props.C75_never_read` | Classical.choice, Quot.sound, propext |
| C75 | `Scribe.Props.C75_stale` | Classical.choice, Quot.sound, propext |
| C76 | `Scribe.Props.C76_fields` | Classical.choice, Quot.sound, propext |
| C76 | `Scribe.Props.C76_taken` | Classical.choice, Quot.sound, propext |
| C76 | `Scribe.Props.C76_stray_panics` | Classical.choice, Quot.sound, propext |
| C76 | `Scribe.Props.C76_taking_is_safe` | Classical.choice, Quot.sound, propext |
| C77 | `Scribe.Props.C77_rules` | Classical.choice, Quot.sound, propext |
| C77 | `Scribe.Props.C77_unique` | Classical.choice, Quot.sound, propext |
| C78 | `Scribe.Props.C78_read` | Classical.choice, Quot.sound, propext |
| C78 | `Scribe.Props.C78_delete` | Classical.choice, Quot.sound, propext |
| C78 | `Scribe.Props.C78_undo` | Classical.choice, Quot.sound, propext |
| C79 | `Scribe.Props.C79_unmodified_is_on_disk` | Classical.choice, Quot.sound, propext |
| C79 | `Scribe.Props.C79_one_buffer_per_file` | Classical.choice, Quot.sound, propext |
| C79 | `Scribe.Props.C79_reopen` | Classical.choice, Quot.sound, propext |
| C79 | `Scribe.Props.C79_failed_save` | Classical.choice, Quot.sound, propext |
| C79 | `Scribe.Props.C79_hard_links` | Classical.choice, Quot.sound, propext |
| C80 | `Scribe.Props.C80_memory` | Classical.choice, Quot.sound, propext |
| C81 | `Scribe.Props.C81_counter` | Classical.choice, Quot.sound, propext |
| C81 | `Scribe.Props.C81_call` | Classical.choice, Quot.sound, propext |
| C81 | `Scribe.Props.C81_exact` | Classical.choice, Quot.sound, propext |
| C81 | `Scribe.Props.C81_typing` | Classical.choice, Quot.sound, propext |
| C82 | `Scribe.Props.C82_same` | Quot.sound, propext |
| C82 | `Scribe.Props.C82_reload` | Quot.sound, propext |
| C82 | `Scribe.Props.C82_open` | Classical.choice, Quot.sound, propext |
| C82 | `Scribe.Props.C82_save` | Classical.choice, Quot.sound, propext |
| C82 | `Scribe.Props.C82_save_error` | Classical.choice, Quot.sound, propext |
| C82 | `Scribe.Props.C82_save_crash` | Classical.choice, Quot.sound, propext |
| C82 | `Scribe.Props.C82_new` | Quot.sound, propext |
| C82 | `Scribe.Props.C82_no_missing_scope` | Quot.sound, propext |
| C83 | `Scribe.Props.C83_current` | Classical.choice, Quot.sound, propext |
| C83 | `Scribe.Props.C83_has_syntax` | Classical.choice, Quot.sound, propext |
| C83 | `Scribe.Props.C83_jump` | Classical.choice, Quot.sound, propext |
| C84 | `Scribe.Shared.C84_no_panic` | Classical.choice, Quot.sound, propext |
| C84 | `Scribe.Shared.C84_edits_own_text` | Classical.choice, Quot.sound, propext |
| C84 | `Scribe.Shared.C84_moves_cursor_text` | Quot.sound, propext |
| C84 | `Scribe.Shared.C84_replace_reattaches` | propext |
| C84 | `Scribe.Shared.C84_history_spared` | Quot.sound, propext |
| C84 | `Scribe.Shared.C84_bookkeeping` | Classical.choice, Quot.sound, propext |
| C85 | `Scribe.Props.C85_typing` | Classical.choice, Quot.sound, propext |
| C85 | `Scribe.Props.C85_undo_typing` | Classical.choice, Quot.sound, propext |
| C85 | `Scribe.Props.C85_erasing` | Classical.choice, Quot.sound, propext |
| C85 | `Scribe.Props.C85_deleting` | Classical.choice, Quot.sound, propext |
| C86 | `Scribe.Props.C86_elsewhere` | Classical.choice, Quot.sound, propext |
| C86 | `Scribe.Props.C86_replace_one` | Classical.choice, Quot.sound, propext |
| C86 | `Scribe.Props.C86_replace_all` | Classical.choice, Quot.sound, propext |
| C86 | `Scribe.Props.C86_undo` | Classical.choice, Quot.sound, propext |
| C87 | `Scribe.Props.C87_program` | Classical.choice, Quot.sound, propext |
| C87 | `Scribe.Props.C87_only_saves` | propext |
| C87 | `Scribe.Props.C87_files` | Classical.choice, Quot.sound, propext |
| C88 | `Scribe.Props.C88_backward` | Classical.choice, Quot.sound, propext |
| C88 | `Scribe.Props.C88_forward` | Classical.choice, Quot.sound, propext |
| C88 | `Scribe.Props.C88_undo` | Classical.choice, Quot.sound, propext |
| C89 | `Scribe.Props.C89_cut_paste` | Classical.choice, Quot.sound, propext |
| C90 | `Scribe.Props.C90_goes_on` | Classical.choice, Quot.sound, propext |
| C90 | `Scribe.Props.C90_returned` | Quot.sound, propext |
| C90 | `Scribe.Props.C90_quiet` | Quot.sound, propext |
| C90 | `Scribe.Props.C90_unwound_edit` | Quot.sound, propext |
| C90 | `Scribe.Props.C90_only_edits` | propext |
| C90 | `Scribe.Props.C90_unwound_undo` | Quot.sound, propext |
| C90 | `Scribe.Props.C90_unwound_redo` | Quot.sound, propext |
| C90 | `Scribe.Props.C90_reports` | Quot.sound, propext |
| C91 | `Scribe.Props.C91_cache` | Classical.choice, Quot.sound, propext |
| C91 | `Scribe.Props.C91_tokens` | Classical.choice, Quot.sound, propext |
| C92 | `Scribe.Props.C92_lines` | Classical.choice, Quot.sound, propext |
| C93 | `Scribe.Props.C93_by_line` | Classical.choice, Quot.sound, propext |
| C93 | `Scribe.Props.C93_interleaving` | Classical.choice, Quot.sound, propext |
| C94 | `Scribe.Props.C94_byte_names` | Classical.choice, Quot.sound, propext |
| C94 | `Scribe.Props.C94_text_names` | Classical.choice, Quot.sound, propext |
| C94 | `Scribe.Props.C94_no_name` | Quot.sound, propext |
| C94 | `Scribe.Props.C94_new` | Classical.choice, Quot.sound, propext |
| C95 | `Scribe.Props.C95_join` | Classical.choice, Quot.sound, propext |
| C95 | `Scribe.Props.C95_insert` | Classical.choice, Quot.sound, propext |
| C95 | `Scribe.Props.C95_delete` | Classical.choice, Quot.sound, propext |
| C95 | `Scribe.Props.C95_back` | Classical.choice, Quot.sound, propext |
| C95 | `Scribe.Props.C95_session` | Classical.choice, Quot.sound, propext |
| C96 | `Scribe.Props.C96_two` | Classical.choice, Quot.sound, propext |
| C96 | `Scribe.Props.C96_many` | Classical.choice, Quot.sound, propext |
| C97 | `Scribe.Props.C97_programs` | Classical.choice, Quot.sound, propext |
| C97 | `Scribe.Props.C97_unnoticed` | Quot.sound, propext |
| C97 | `Scribe.Props.C97_files` | Classical.choice, Quot.sound, propext |
| C97 | `Scribe.Props.C97_overwrites` | Classical.choice, Quot.sound, propext |
| C98 | `Scribe.Props.C98_dialogue` | Classical.choice, Quot.sound, propext |
| C98 | `Scribe.Props.C98_same` | Classical.choice, Quot.sound, propext |
| C98 | `Scribe.Props.C98_same_plain` | Classical.choice, Quot.sound, propext |
| C99 | `Scribe.Props.C99_exact` | Classical.choice, Quot.sound, propext |
| C99 | `Scribe.Props.C99_alone` | Quot.sound, propext |
| C99 | `Scribe.Props.C99_fragments` | Classical.choice, Quot.sound, propext |
| C99 | `Scribe.Props.C99_same` | Classical.choice, Quot.sound, propext |
| C99 | `Scribe.Props.C99_sole` | Classical.choice, Quot.sound, propext |
| C99 | `Scribe.Props.C99_mixed` | Classical.choice, Quot.sound, propext |
| C99 | `Scribe.Props.C99_hole` | Classical.choice, Quot.sound, propext |
| C100 | `Scribe.Props.C100_crlf_clusters` | Classical.choice, Quot.sound, propext |
| C100 | `Scribe.Props.C100_gap_buffer` | Classical.choice, Quot.sound, propext |
| C100 | `Scribe.Props.C100_is_clean` | Classical.choice, Quot.sound, propext |
| C100 | `Scribe.Props.C100_editing_session` | Classical.choice, Quot.sound, propext |
| C100 | `Scribe.Props.C100_delete_crlf` | Classical.choice, Quot.sound, propext |
| C100 | `Scribe.Props.C100_paste_undo` | Classical.choice, Quot.sound, propext |
| C101 | `Scribe.Props.C101_stream` | Classical.choice, Quot.sound, propext |
| C101 | `Scribe.Props.C101_error` | Classical.choice, Quot.sound, propext |
| C101 | `Scribe.Props.C101_current` | Classical.choice, Quot.sound, propext |
| C102 | `Scribe.Props.C102_any` | Classical.choice, Quot.sound, propext |
| C102 | `Scribe.Props.C102_prefix` | Classical.choice, Quot.sound, propext |
| C102 | `Scribe.Props.C102_fit` | Classical.choice, Quot.sound, propext |
| C102 | `Scribe.Props.C102_contract` | Quot.sound, propext |
| C102 | `Scribe.Props.C102_current` | Classical.choice, Quot.sound, propext |
| C103 | `Scribe.Props.C103_calls` | Classical.choice, Quot.sound, propext |
| C103 | `Scribe.Props.C103_first` | Quot.sound, propext |
| C103 | `Scribe.Props.C103_pieces` | Classical.choice, Quot.sound, propext |
| C104 | `Scribe.Shared.C104_strings` | Quot.sound, propext |
| C104 | `Scribe.Shared.C104_no_panic` | Classical.choice, Quot.sound, propext |
| C104 | `Scribe.Shared.C104_insert` | Classical.choice, Quot.sound, propext |
| C104 | `Scribe.Shared.C104_replace` | Classical.choice, Quot.sound, propext |
| C105 | `Scribe.Props.C105_ledger` | Classical.choice, Quot.sound, propext |
| C105 | `Scribe.Props.C105_still` | Classical.choice, Quot.sound, propext |
| C105 | `Scribe.Props.C105_without_undo` | Classical.choice, Quot.sound, propext |
| C105 | `Scribe.Props.C105_reload` | Classical.choice, Quot.sound, propext |
| C105 | `Scribe.Props.C105_deleted` | Classical.choice, Quot.sound, propext |
| C106 | `Scribe.Props.C106_counts` | Classical.choice, Quot.sound, propext |
| C106 | `Scribe.Props.C106_no_leak` | Classical.choice, Quot.sound, propext |
| C106 | `Scribe.Props.C106_one_each` | Classical.choice, Quot.sound, propext |
| C106 | `Scribe.Props.C106_same` | Classical.choice, Quot.sound, propext |
| C106 | `Scribe.Props.C106_replace` | Classical.choice, Quot.sound, propext |
| C106 | `Scribe.Props.C106_made` | Classical.choice, Quot.sound, propext |
| C106 | `Scribe.Props.C106_edit` | Classical.choice, Quot.sound, propext |
| C106 | `Scribe.Props.C106_moved` | Classical.choice, Quot.sound, propext |
| C107 | `Scribe.Props.C107_calls` | Classical.choice, Quot.sound, propext |
| C107 | `Scribe.Props.C107_same` | Quot.sound |
| C107 | `Scribe.Props.C107_forgotten` | Classical.choice, Quot.sound, propext |
| C107 | `Scribe.Props.C107_pieces` | Classical.choice, Quot.sound, propext |
| C108 | `Scribe.Props.C108_same` | Classical.choice, Quot.sound, propext |
| C108 | `Scribe.Props.C108_exact` | Classical.choice, Quot.sound, propext |
| C108 | `Scribe.Props.C108_call` | Classical.choice, Quot.sound, propext |
| C108 | `Scribe.Props.C108_append` | Classical.choice, Quot.sound, propext |
| C108 | `Scribe.Props.C108_quadratic` | Classical.choice, Quot.sound, propext |
| C109 | `Scribe.Props.C109_meaning` | Classical.choice, Quot.sound, propext |
| C109 | `Scribe.Props.C109_file_name` | Classical.choice, Quot.sound, propext |
| C109 | `Scribe.Props.C109_same` | Classical.choice, Quot.sound, propext |
| C109 | `Scribe.Props.C109_strip` | Classical.choice, Quot.sound, propext |
| C109 | `Scribe.Props.C109_trimmed` | Quot.sound, propext |
| C109 | `Scribe.Props.C109_canonical` | Classical.choice, Quot.sound, propext |
| C109 | `Scribe.Props.C109_workspace` | Classical.choice, Quot.sound, propext |
| C110 | `Scribe.Props.C110_exact` | Quot.sound, propext |
| C110 | `Scribe.Props.C110_goes_on` | Classical.choice, Quot.sound, propext |
| C110 | `Scribe.Props.C110_unwound` | Quot.sound, propext |
| C110 | `Scribe.Props.C110_cells` | Quot.sound, propext |
| C110 | `Scribe.Props.C110_twice` | Quot.sound, propext |
| C111 | `Scribe.Props.C111_exact` | Classical.choice, Quot.sound, propext |
| C111 | `Scribe.Props.C111_call` | Classical.choice, Quot.sound, propext |
| C111 | `Scribe.Props.C111_steps` | Classical.choice, Quot.sound, propext |
| C111 | `Scribe.Props.C111_end` | Classical.choice, Quot.sound, propext |
| C112 | `Scribe.Props.C112_walk` | Classical.choice, Quot.sound, propext |
| C112 | `Scribe.Props.C112_route` | Classical.choice, Quot.sound, propext |
| C112 | `Scribe.Props.C112_lengths` | Classical.choice, Quot.sound, propext |
| C113 | `Scribe.Props.C113_indent` | Classical.choice, Quot.sound, propext |
| C113 | `Scribe.Props.C113_outdent` | Classical.choice, Quot.sound, propext |
| C113 | `Scribe.Props.C113_back` | Classical.choice, Quot.sound, propext |
| C113 | `Scribe.Props.C113_short` | Classical.choice, Quot.sound, propext |
| C114 | `Scribe.Props.C114_format` | Classical.choice, Quot.sound, propext |
| C114 | `Scribe.Props.C114_readable` | Classical.choice, Quot.sound, propext |
| C114 | `Scribe.Props.C114_one_line` | Classical.choice, Quot.sound, propext |
| C114 | `Scribe.Props.C114_many` | Classical.choice, Quot.sound, propext |
| C114 | `Scribe.Props.C114_text` | Classical.choice, Quot.sound, propext |
| C115 | `Scribe.Props.C115_replace` | Classical.choice, Quot.sound, propext |
| C115 | `Scribe.Props.C115_rearrange` | Classical.choice, Quot.sound, propext |
| C116 | `Scribe.Props.C116_resume` | Classical.choice, Quot.sound, propext |
| C116 | `Scribe.Props.C116_patch` | Classical.choice, Quot.sound, propext |
| C116 | `Scribe.Props.C116_states` | Classical.choice, Quot.sound, propext |
| C116 | `Scribe.Props.C116_cached` | Classical.choice, Quot.sound, propext |
| C117 | `Scribe.Props.C117_walk` | Classical.choice, Quot.sound, propext |
| C117 | `Scribe.Props.C117_key` | Classical.choice, Quot.sound, propext |
| C117 | `Scribe.Props.C117_below` | Classical.choice, Quot.sound, propext |
| C117 | `Scribe.Props.C117_beside` | Classical.choice, Quot.sound, propext |
| C117 | `Scribe.Props.C117_home` | Classical.choice, Quot.sound, propext |
| C118 | `Scribe.Props.C118_bounds` | Classical.choice, Quot.sound, propext |
| C118 | `Scribe.Props.C118_column` | Classical.choice, Quot.sound, propext |
| C118 | `Scribe.Props.C118_astray` | Classical.choice, Quot.sound, propext |
| C119 | `Scribe.Props.C119_untouched` | Quot.sound, propext |
| C119 | `Scribe.Props.C119_converted` | Quot.sound, propext |
| C119 | `Scribe.Props.C119_unneeded` | Quot.sound, propext |
| C119 | `Scribe.Props.C119_session` | Classical.choice, Quot.sound, propext |
