# Axioms of each manifest theorem

Output of `#print axioms`, produced by `tools/axioms.py`.

## none

`C04_colCount`, `C15_copy`, `C28_string_stub`, `C34_copy_move`, `C34_self`, `C54_set_matrix_null`, `C66_bands_empty`, `C105_polygon`

## propext

`C01_setBit_out_of_range`, `C02_expected_roundtrip_fails`, `C04_counts`, `C04_reset`, `C05_out_of_range`, `C24_throws`, `C34_move_source`, `C34_rvalue_loses_columns`, `C70_flag`, `C78_not`

## propext, Quot.sound

`C01_getBit_spec`, `C02_arr_throws`, `C03_getHigherBitPos`, `C03_getLowerBitPos`, `C03_zero_byte`, `C04_at`, `C04_resize`, `C04_opNot`, `C04_write`, `C06_setRange_throws`, `C07_ones_degenerate`, `C15_frame`, `C15_copy_then_write`, `C15_move`, `C16_new_alloc_failure`, `C16_resize_alloc_failure`, `C24_calcHash`, `C35_make_rectangle`, `C36_listing_unique`, `C36_terminates`, `C36_deterministic`, `C36_cycle_never_returns`, `C36_degenerate`, `C36_ignores_reference_position`, `C44_denormalize_dword`, `C47_right_when_sorted`, `C48_setDeltas`, `C58_destroy`, `C64_last_flush`, `C83_destroy`, `C83_dangling`, `C106_init`

## propext, Classical.choice, Quot.sound

`C01_setBit_getBit`, `C02_arr_accepted`, `C03_calcRealByteCnt`, `C04_new`, `C04_new_memory`, `C05_history`, `C05_set_get`, `C05_get_total`, `C06_setRange`, `C06_setRange_border`, `C07_ones`, `C07_zeros`, `C07_resize`, `C08_xor`, `C08_xor_errors`, `C08_xor_laws`, `C09_compare`, `C09_compare_error`, `C09_compare_symm`, `C09_eq_ne_threshold`, `C09_distance`, `C09_small_exact`, `C09_large_not_exact`, `C09_not_transitive`, `C09_one_sided`, `C09_threshold_blurred`, `C09_empty_not_eq_self`, `C09_ranking`, `C10_ratio`, `C10_range`, `C10_empty_nan`, `C10_ranking`, `C11_roundtrip`, `C12_format`, `C12_invalid_throws`, `C12_injective`, `C13_deserialize`, `C13_second_length_ignored`, `C14_fromString`, `C14_no_wrap_safe`, `C14_wrap_ub`, `C14_lost_rows`, `C17_roundtrip`, `C17_empty_throws`, `C18_rfc4648`, `C18_padding`, `C19_lines`, `C19_strip`, `C20_decode_total`, `C20_bad_char`, `C20_short_group_ub`, `C20_exact`, `C20_exact_lines`, `C21_encode_injective`, `C21_trailing_ignored`, `C21_spare_bits`, `C21_alphabets_mixed`, `C22_roundtrip`, `C22_format`, `C22_any_length`, `C22_roundtrip_any_length`, `C22_empty`, `C22_zero_crc_exists`, `C23_accepted`, `C23_body_burst`, `C23_checksum_change`, `C23_single_char`, `C23_long_unprotected`, `C23_three_bits`, `C23_two_chars`, `C24_range`, `C25_burst`, `C25_single_byte`, `C25_burst_bits`, `C25_two_bits`, `C25_two_bits_detected`, `C25_forge`, `C25_three_bits_detected`, `C25_three_bits_near`, `C25_three_bits_missed`, `C25_two_bytes_detected`, `C25_two_bytes_missed`, `C25_swap`, `C26_roundtrip`, `C26_injective`, `C27_structure`, `C27_exact_code`, `C27_size`, `C27_empty`, `C27_decode_total`, `C27_decode_allocFail`, `C27_coefficient`, `C28_byteDecode_empty`, `C28_byteEncode`, `C28_coefficient`, `C29_setAngleCoords`, `C29_isInWorkspace`, `C29_history`, `C30_encode_total`, `C30_strict_ub`, `C30_roundtrip`, `C30_signed_char_corrupts`, `C30_wide_lost`, `C30_hash_faithful`, `C30_raw_hash_unreadable`, `C31_three_bits`, `C31_outside_body`, `C31_two_chars`, `C31_single_char`, `C31_prefix`, `C31_accepted`, `C32_read_unchanged_unless_true`, `C32_read_missing`, `C32_flush_read`, `C32_torn_write_detected`, `C32_flush_other_files`, `C33_flush_destroys`, `C33_flush_empty_matrix`, `C33_crash_points`, `C34_initFromHash`, `C35_result`, `C35_succeeds`, `C35_covers_only_origin`, `C35_ignores_points`, `C35_shape`, `C35_rejects`, `C35_empty_path_ub`, `C35_exact`, `C36_exact`, `C36_listing`, `C36_only_drawable`, `C36_succeeds`, `C37_frame`, `C37_no_ub`, `C37_polygon_noop`, `C37_unsupported`, `C37_null_ub`, `C37_short_ub`, `C37_overflow_ub`, `C37_overflow_misses`, `C38_idempotent`, `C38_commute`, `C38_permutation`, `C38_direct`, `C39_exact_cells`, `C39_centres_covered`, `C39_cover_all`, `C39_left_top_throws`, `C39_overshoot`, `C39_exact_cells_double`, `C39_left_top_misses`, `C39_nothing_far`, `C40_bad_arguments`, `C40_first_init`, `C40_init_once`, `C40_process_zero`, `C40_process_before_init`, `C40_process_strict_ub`, `C41_bitmap`, `C41_returns_or_throws`, `C41_history_independent`, `C41_huge_workspace_ub`, `C41_later_layers_ignored`, `C41_centres_covered`, `C42_read`, `C42_units`, `C42_second_library`, `C42_written_file`, `C43_null_layout`, `C43_missing_file`, `C43_success_then_failure`, `C43_bad_line`, `C43_no_geometry`, `C43_exact`, `C43_rec_overflow`, `C43_rec_incomplete`, `C44_normalize_word`, `C44_word_inverse`, `C44_normalize_dword`, `C44_dword_inverse`, `C45_normalize`, `C45_roundtrip`, `C45_power_lost`, `C45_small_lost`, `C45_large_lost`, `C45_special`, `C46_read_fails`, `C47_enumerate`, `C47_again`, `C47_wrong_pairs`, `C47_exchanges_geometries`, `C48_setEps_accepts_anything`, `C48_setEps_stuck`, `C49_print`, `C49_injective`, `C50_get_reader`, `C50_reader_ready`, `C50_empty_file_blocks`, `C50_element_name`, `C51_is_my_format`, `C52_post_process`, `C52_unresolved`, `C53_parse`, `C53_read`, `C53_second_property`, `C54_history`, `C54_process`, `C54_process_throws`, `C54_intersection`, `C55_print`, `C55_injective`, `C56_randm`, `C56_same_second`, `C57_outcome`, `C57_any_file`, `C57_read`, `C57_missing_file`, `C58_strict`, `C58_copy`, `C58_gdsii`, `C58_msk`, `C59_prefix`, `C59_design`, `C60_causes`, `C60_padded`, `C60_cut_in_dates`, `C61_unknown`, `C61_out_of_place`, `C61_array_reference`, `C62_file_to_bitmaps`, `C62_whole_layout`, `C62_saved`, `C63_layers_hold_nothing`, `C63_gdsii_dark`, `C64_history`, `C65_moved_together`, `C65_moved_together_double`, `C65_double_not_invariant`, `C66_bands`, `C66_bands_complete`, `C66_bands_too_many`, `C66_bands_too_many_columns`, `C66_workspaces`, `C66_cover`, `C66_cover_exact`, `C66_double_gap`, `C66_count_positive`, `C67_exact`, `C67_count`, `C67_distribution`, `C67_small`, `C67_no_fragments`, `C67_last_big`, `C68_sticking_out`, `C68_right_of_window`, `C68_left_of_window`, `C68_no_cell_size`, `C68_shared`, `C68_top_edge`, `C68_raw`, `C69_never_stored`, `C69_out_of_step`, `C69_without_attr`, `C70_code`, `C70_raw`, `C70_overrun`, `C70_otherwise`, `C70_strict`, `C70_read_file`, `C70_own_hash`, `C71_similar`, `C71_compare`, `C71_different`, `C71_files`, `C71_similar_local`, `C72_exact`, `C72_left_top`, `C72_can_shrink`, `C72_left_top_double`, `C73_exact`, `C73_columns_lost`, `C73_rows_lost`, `C73_nothing_drawn`, `C73_nothing_drawn_rows`, `C73_fragment`, `C74_lookup`, `C74_similar_found`, `C74_different_not_found`, `C74_files`, `C75_balance`, `C75_next`, `C75_frame`, `C75_standard`, `C76_geometry`, `C76_process`, `C76_not_mirrored`, `C77_square_refused`, `C77_stored_bitmap_lost`, `C77_too_many_rows`, `C77_base64_request`, `C77_byte_encode`, `C77_text_length`, `C77_granted`, `C77_out_of_proportion`, `C78_text_never_wrong`, `C78_file_never_wrong`, `C78_read`, `C78_rle_silent`, `C79_assign_returns`, `C79_assign_throws`, `C79_strong`, `C79_trap`, `C79_layout_assign`, `C79_move_terminates`, `C80_exact`, `C80_double`, `C80_double_not_invariant`, `C81_exclusive`, `C81_bytes`, `C81_same`, `C81_same_final`, `C81_one_writer`, `C81_mixed`, `C82_generator`, `C82_rasteriser`, `C82_fragment`, `C82_fragment_plan`, `C82_ratios`, `C82_coefficients`, `C82_gdsii_read`, `C82_gdsii_write`, `C82_subnormal`, `C83_false`, `C83_double_delete`, `C83_nothing`, `C83_true`, `C83_second`, `C83_lost_lines`, `C83_no_failure`, `C83_no_throw`, `C83_reuse`, `C83_null`, `C83_open_stream`, `C84_ascii`, `C84_not_found`, `C84_found`, `C84_mojibake`, `C84_names`, `C84_same_file`, `C85_zero_deltas`, `C85_fresh`, `C85_not_finite`, `C85_zero_accepted`, `C86_get`, `C86_set`, `C86_set_byte`, `C87_cut`, `C87_cut_rows`, `C87_same`, `C87_same_rows`, `C87_cut_double`, `C87_cut_rows_double`, `C87_files`, `C87_files_rows`, `C88_same_set`, `C88_same_set_returns`, `C88_files`, `C89_union`, `C89_superset`, `C89_added`, `C89_files`, `C90_windows`, `C90_windows_double`, `C90_crossing`, `C90_crossing_double`, `C90_files`, `C91_one_rectangle`, `C91_disjoint`, `C91_area`, `C91_compare`, `C91_finer`, `C91_compare_finer`, `C91_two_grids`, `C91_files`, `C91_compare_files`, `C92_equal`, `C92_decided`, `C92_gap`, `C92_at_most`, `C92_files`, `C92_ranking`, `C93_pointer`, `C93_overwritten`, `C93_forgets`, `C93_copy`, `C93_survives`, `C93_separate`, `C93_keep`, `C93_again`, `C94_zoom_double`, `C94_zoom`, `C94_bitmaps`, `C94_files`, `C95_code_size`, `C95_text_exact`, `C95_text_size`, `C95_boxes`, `C95_drawn`, `C95_files`, `C96_short_text`, `C96_read_file`, `C96_signed`, `C97_content`, `C97_ratio`, `C97_large_equal`, `C97_files`, `C98_rewrite`, `C98_same_text`, `C98_grows`, `C99_count`, `C99_counts_exist`, `C99_counts_agree`, `C99_at_most`, `C99_doubles`, `C99_offset`, `C100_flattened`, `C100_unflattened`, `C100_at_least`, `C100_default_box`, `C100_exponential`, `C101_paths_at_origin`, `C101_paths_invisible`, `C101_redrawn`, `C102_same_rectangles`, `C102_rectangles_only`, `C103_same_first`, `C103_one_layer`, `C103_second_lost`, `C103_none`, `C104_dark_or_alike`, `C104_retry`, `C104_enough`, `C104_returns`, `C104_need`, `C104_init_once`, `C105_geometry`, `C105_rectangle`, `C105_one_matrix_decides`, `C106_draws_as_source`, `C106_layers_lost`
