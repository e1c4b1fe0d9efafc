{
 "claims": [
  {
   "property": "C01",
   "status": "proved",
   "theorems": [
    "Verif.Props.C01_setBit_getBit",
    "Verif.Props.C01_getBit_spec",
    "Verif.Props.C01_setBit_out_of_range"
   ],
   "note": ""
  },
  {
   "property": "C02",
   "status": "proved",
   "theorems": [
    "Verif.Props.C02_arr_throws",
    "Verif.Props.C02_arr_accepted",
    "Verif.Props.C02_expected_roundtrip_fails"
   ],
   "note": "The expectation of a user is stated and refuted; the theorems characterise the real outcome of every call."
  },
  {
   "property": "C03",
   "status": "proved",
   "theorems": [
    "Verif.Props.C03_getHigherBitPos",
    "Verif.Props.C03_getLowerBitPos",
    "Verif.Props.C03_zero_byte",
    "Verif.Props.C03_calcRealByteCnt"
   ],
   "note": ""
  },
  {
   "property": "C04",
   "status": "proved",
   "theorems": [
    "Verif.Props.C04_at",
    "Verif.Props.C04_resize",
    "Verif.Props.C04_new",
    "Verif.Props.C04_new_memory",
    "Verif.Props.C04_opNot",
    "Verif.Props.C04_colCount",
    "Verif.Props.C04_counts",
    "Verif.Props.C04_write",
    "Verif.Props.C04_reset"
   ],
   "note": ""
  },
  {
   "property": "C05",
   "status": "proved",
   "theorems": [
    "Verif.Props.C05_history",
    "Verif.Props.C05_set_get",
    "Verif.Props.C05_out_of_range",
    "Verif.Props.C05_get_total"
   ],
   "note": ""
  },
  {
   "property": "C06",
   "status": "proved",
   "theorems": [
    "Verif.Props.C06_setRange",
    "Verif.Props.C06_setRange_throws",
    "Verif.Props.C06_setRange_border"
   ],
   "note": "Includes the exact consequences of the off-by-one upper check."
  },
  {
   "property": "C07",
   "status": "proved",
   "theorems": [
    "Verif.Props.C07_ones",
    "Verif.Props.C07_ones_degenerate",
    "Verif.Props.C07_zeros",
    "Verif.Props.C07_resize"
   ],
   "note": ""
  },
  {
   "property": "C08",
   "status": "proved",
   "theorems": [
    "Verif.Props.C08_xor",
    "Verif.Props.C08_xor_errors",
    "Verif.Props.C08_xor_laws"
   ],
   "note": ""
  },
  {
   "property": "C09",
   "status": "proved",
   "theorems": [
    "Verif.Props.C09_compare",
    "Verif.Props.C09_compare_error",
    "Verif.Props.C09_compare_symm",
    "Verif.Props.C09_eq_ne_threshold",
    "Verif.Props.C09_distance",
    "Verif.Props.C09_small_exact",
    "Verif.Props.C09_large_not_exact",
    "Verif.Props.C09_not_transitive",
    "Verif.Props.C09_one_sided",
    "Verif.Props.C09_threshold_blurred",
    "Verif.Props.C09_empty_not_eq_self",
    "Verif.Props.C09_ranking"
   ],
   "note": ""
  },
  {
   "property": "C10",
   "status": "proved",
   "theorems": [
    "Verif.Props.C10_ratio",
    "Verif.Props.C10_range",
    "Verif.Props.C10_empty_nan",
    "Verif.Props.C10_ranking"
   ],
   "note": ""
  },
  {
   "property": "C11",
   "status": "proved",
   "theorems": [
    "Verif.Props.C11_roundtrip"
   ],
   "note": "Exact characterisation: round trip iff the cell count is a multiple of 8, otherwise undefined behaviour."
  },
  {
   "property": "C12",
   "status": "proved",
   "theorems": [
    "Verif.Props.C12_format",
    "Verif.Props.C12_invalid_throws",
    "Verif.Props.C12_injective"
   ],
   "note": ""
  },
  {
   "property": "C13",
   "status": "proved",
   "theorems": [
    "Verif.Props.C13_deserialize",
    "Verif.Props.C13_second_length_ignored"
   ],
   "note": ""
  },
  {
   "property": "C14",
   "status": "proved",
   "theorems": [
    "Verif.Props.C14_fromString",
    "Verif.Props.C14_no_wrap_safe",
    "Verif.Props.C14_wrap_ub",
    "Verif.Props.C14_lost_rows"
   ],
   "note": ""
  },
  {
   "property": "C15",
   "status": "proved",
   "theorems": [
    "Verif.Props.C15_copy",
    "Verif.Props.C15_frame",
    "Verif.Props.C15_copy_then_write",
    "Verif.Props.C15_move"
   ],
   "note": ""
  },
  {
   "property": "C16",
   "status": "proved",
   "theorems": [
    "Verif.Props.C16_new_alloc_failure",
    "Verif.Props.C16_resize_alloc_failure"
   ],
   "note": "For every allocation policy."
  },
  {
   "property": "C17",
   "status": "proved",
   "theorems": [
    "Verif.Props.C17_roundtrip",
    "Verif.Props.C17_empty_throws"
   ],
   "note": ""
  },
  {
   "property": "C18",
   "status": "proved",
   "theorems": [
    "Verif.Props.C18_rfc4648",
    "Verif.Props.C18_padding"
   ],
   "note": ""
  },
  {
   "property": "C19",
   "status": "proved",
   "theorems": [
    "Verif.Props.C19_lines",
    "Verif.Props.C19_strip"
   ],
   "note": ""
  },
  {
   "property": "C20",
   "status": "proved",
   "theorems": [
    "Verif.Props.C20_decode_total",
    "Verif.Props.C20_bad_char",
    "Verif.Props.C20_short_group_ub",
    "Verif.Props.C20_exact",
    "Verif.Props.C20_exact_lines"
   ],
   "note": ""
  },
  {
   "property": "C21",
   "status": "proved",
   "theorems": [
    "Verif.Props.C21_encode_injective",
    "Verif.Props.C21_trailing_ignored",
    "Verif.Props.C21_spare_bits",
    "Verif.Props.C21_alphabets_mixed"
   ],
   "note": ""
  },
  {
   "property": "C22",
   "status": "proved",
   "theorems": [
    "Verif.Props.C22_roundtrip",
    "Verif.Props.C22_format",
    "Verif.Props.C22_any_length",
    "Verif.Props.C22_roundtrip_any_length",
    "Verif.Props.C22_empty",
    "Verif.Props.C22_zero_crc_exists"
   ],
   "note": ""
  },
  {
   "property": "C23",
   "status": "proved",
   "theorems": [
    "Verif.Props.C23_accepted",
    "Verif.Props.C23_body_burst",
    "Verif.Props.C23_checksum_change",
    "Verif.Props.C23_single_char",
    "Verif.Props.C23_long_unprotected",
    "Verif.Props.C23_three_bits",
    "Verif.Props.C23_two_chars"
   ],
   "note": ""
  },
  {
   "property": "C24",
   "status": "proved",
   "theorems": [
    "Verif.Props.C24_calcHash",
    "Verif.Props.C24_throws",
    "Verif.Props.C24_range"
   ],
   "note": ""
  },
  {
   "property": "C25",
   "status": "proved",
   "theorems": [
    "Verif.Props.C25_burst",
    "Verif.Props.C25_single_byte",
    "Verif.Props.C25_burst_bits",
    "Verif.Props.C25_two_bits",
    "Verif.Props.C25_two_bits_detected",
    "Verif.Props.C25_forge",
    "Verif.Props.C25_three_bits_detected",
    "Verif.Props.C25_three_bits_near",
    "Verif.Props.C25_three_bits_missed",
    "Verif.Props.C25_two_bytes_detected",
    "Verif.Props.C25_two_bytes_missed",
    "Verif.Props.C25_swap"
   ],
   "note": ""
  },
  {
   "property": "C26",
   "status": "proved",
   "theorems": [
    "Verif.Props.C26_roundtrip",
    "Verif.Props.C26_injective"
   ],
   "note": ""
  },
  {
   "property": "C27",
   "status": "proved",
   "theorems": [
    "Verif.Props.C27_structure",
    "Verif.Props.C27_exact_code",
    "Verif.Props.C27_size",
    "Verif.Props.C27_empty",
    "Verif.Props.C27_decode_total",
    "Verif.Props.C27_decode_allocFail",
    "Verif.Props.C27_coefficient"
   ],
   "note": "For every allocation policy where stated."
  },
  {
   "property": "C28",
   "status": "proved",
   "theorems": [
    "Verif.Props.C28_string_stub",
    "Verif.Props.C28_byteDecode_empty",
    "Verif.Props.C28_byteEncode",
    "Verif.Props.C28_coefficient"
   ],
   "note": ""
  },
  {
   "property": "C29",
   "status": "proved",
   "theorems": [
    "Verif.Props.C29_setAngleCoords",
    "Verif.Props.C29_isInWorkspace",
    "Verif.Props.C29_history"
   ],
   "note": ""
  },
  {
   "property": "C30",
   "status": "proved",
   "theorems": [
    "Verif.Props.C30_encode_total",
    "Verif.Props.C30_strict_ub",
    "Verif.Props.C30_roundtrip",
    "Verif.Props.C30_signed_char_corrupts",
    "Verif.Props.C30_wide_lost",
    "Verif.Props.C30_hash_faithful",
    "Verif.Props.C30_raw_hash_unreadable"
   ],
   "note": "Platform parameters: char signedness, over-wide shifts masked or undefined; each theorem names the case."
  },
  {
   "property": "C31",
   "status": "proved",
   "theorems": [
    "Verif.Props.C31_three_bits",
    "Verif.Props.C31_outside_body",
    "Verif.Props.C31_two_chars",
    "Verif.Props.C31_single_char",
    "Verif.Props.C31_prefix",
    "Verif.Props.C31_accepted"
   ],
   "note": ""
  },
  {
   "property": "C32",
   "status": "proved",
   "theorems": [
    "Verif.Props.C32_read_unchanged_unless_true",
    "Verif.Props.C32_read_missing",
    "Verif.Props.C32_flush_read",
    "Verif.Props.C32_torn_write_detected",
    "Verif.Props.C32_flush_other_files"
   ],
   "note": "Torn writes and crash points are modelled by the number of bytes that reached the file."
  },
  {
   "property": "C33",
   "status": "proved",
   "theorems": [
    "Verif.Props.C33_flush_destroys",
    "Verif.Props.C33_flush_empty_matrix",
    "Verif.Props.C33_crash_points"
   ],
   "note": ""
  },
  {
   "property": "C34",
   "status": "proved",
   "theorems": [
    "Verif.Props.C34_copy_move",
    "Verif.Props.C34_move_source",
    "Verif.Props.C34_rvalue_loses_columns",
    "Verif.Props.C34_self",
    "Verif.Props.C34_initFromHash"
   ],
   "note": ""
  },
  {
   "property": "C35",
   "status": "proved",
   "theorems": [
    "Verif.Props.C35_result",
    "Verif.Props.C35_succeeds",
    "Verif.Props.C35_covers_only_origin",
    "Verif.Props.C35_ignores_points",
    "Verif.Props.C35_shape",
    "Verif.Props.C35_make_rectangle",
    "Verif.Props.C35_rejects",
    "Verif.Props.C35_empty_path_ub",
    "Verif.Props.C35_exact"
   ],
   "note": "The code's defect (every path becomes origin rectangles) is what is proved."
  },
  {
   "property": "C36",
   "status": "proved",
   "theorems": [
    "Verif.Props.C36_exact",
    "Verif.Props.C36_listing",
    "Verif.Props.C36_listing_unique",
    "Verif.Props.C36_only_drawable",
    "Verif.Props.C36_terminates",
    "Verif.Props.C36_succeeds",
    "Verif.Props.C36_deterministic",
    "Verif.Props.C36_cycle_never_returns",
    "Verif.Props.C36_degenerate",
    "Verif.Props.C36_ignores_reference_position"
   ],
   "note": "References may form cycles: termination iff acyclic is part of the claim."
  },
  {
   "property": "C37",
   "status": "proved",
   "theorems": [
    "Verif.Props.C37_frame",
    "Verif.Props.C37_no_ub",
    "Verif.Props.C37_polygon_noop",
    "Verif.Props.C37_unsupported",
    "Verif.Props.C37_null_ub",
    "Verif.Props.C37_short_ub",
    "Verif.Props.C37_overflow_ub",
    "Verif.Props.C37_overflow_misses"
   ],
   "note": "For every rounding function whatsoever, including infinities and NaN."
  },
  {
   "property": "C38",
   "status": "proved",
   "theorems": [
    "Verif.Props.C38_idempotent",
    "Verif.Props.C38_commute",
    "Verif.Props.C38_permutation",
    "Verif.Props.C38_direct"
   ],
   "note": ""
  },
  {
   "property": "C39",
   "status": "proved",
   "theorems": [
    "Verif.Props.C39_exact_cells",
    "Verif.Props.C39_centres_covered",
    "Verif.Props.C39_cover_all",
    "Verif.Props.C39_left_top_throws",
    "Verif.Props.C39_overshoot",
    "Verif.Props.C39_exact_cells_double",
    "Verif.Props.C39_left_top_misses",
    "Verif.Props.C39_nothing_far"
   ],
   "note": "exact_cells is for exact arithmetic; centres_covered, cover_all, nothing_far for every Rounding."
  },
  {
   "property": "C40",
   "status": "proved",
   "theorems": [
    "Verif.Props.C40_bad_arguments",
    "Verif.Props.C40_first_init",
    "Verif.Props.C40_init_once",
    "Verif.Props.C40_process_zero",
    "Verif.Props.C40_process_before_init",
    "Verif.Props.C40_process_strict_ub"
   ],
   "note": ""
  },
  {
   "property": "C41",
   "status": "proved",
   "theorems": [
    "Verif.Props.C41_bitmap",
    "Verif.Props.C41_returns_or_throws",
    "Verif.Props.C41_history_independent",
    "Verif.Props.C41_huge_workspace_ub",
    "Verif.Props.C41_later_layers_ignored",
    "Verif.Props.C41_centres_covered"
   ],
   "note": "For every Rounding and every history of calls."
  },
  {
   "property": "C42",
   "status": "proved",
   "theorems": [
    "Verif.Props.C42_read",
    "Verif.Props.C42_units",
    "Verif.Props.C42_second_library",
    "Verif.Props.C42_written_file"
   ],
   "note": "Grammar of lines in Spec/Msk.lean, independent of the sscanf model."
  },
  {
   "property": "C43",
   "status": "proved",
   "theorems": [
    "Verif.Props.C43_null_layout",
    "Verif.Props.C43_missing_file",
    "Verif.Props.C43_success_then_failure",
    "Verif.Props.C43_bad_line",
    "Verif.Props.C43_no_geometry",
    "Verif.Props.C43_exact",
    "Verif.Props.C43_rec_overflow",
    "Verif.Props.C43_rec_incomplete"
   ],
   "note": "C43_exact: success iff the file is in the grammar."
  },
  {
   "property": "C44",
   "status": "proved",
   "theorems": [
    "Verif.Props.C44_normalize_word",
    "Verif.Props.C44_word_inverse",
    "Verif.Props.C44_normalize_dword",
    "Verif.Props.C44_denormalize_dword",
    "Verif.Props.C44_dword_inverse"
   ],
   "note": ""
  },
  {
   "property": "C45",
   "status": "proved",
   "theorems": [
    "Verif.Props.C45_normalize",
    "Verif.Props.C45_roundtrip",
    "Verif.Props.C45_power_lost",
    "Verif.Props.C45_small_lost",
    "Verif.Props.C45_large_lost",
    "Verif.Props.C45_special"
   ],
   "note": ""
  },
  {
   "property": "C46",
   "status": "proved",
   "theorems": [
    "Verif.Props.C46_read_fails"
   ],
   "note": "Invariant over all call histories of the public API."
  },
  {
   "property": "C47",
   "status": "proved",
   "theorems": [
    "Verif.Props.C47_enumerate",
    "Verif.Props.C47_right_when_sorted",
    "Verif.Props.C47_again",
    "Verif.Props.C47_wrong_pairs",
    "Verif.Props.C47_exchanges_geometries"
   ],
   "note": ""
  },
  {
   "property": "C48",
   "status": "proved",
   "theorems": [
    "Verif.Props.C48_setEps_accepts_anything",
    "Verif.Props.C48_setEps_stuck",
    "Verif.Props.C48_setDeltas"
   ],
   "note": ""
  },
  {
   "property": "C49",
   "status": "proved",
   "theorems": [
    "Verif.Props.C49_print",
    "Verif.Props.C49_injective"
   ],
   "note": ""
  },
  {
   "property": "C50",
   "status": "proved",
   "theorems": [
    "Verif.Props.C50_get_reader",
    "Verif.Props.C50_reader_ready",
    "Verif.Props.C50_empty_file_blocks",
    "Verif.Props.C50_element_name"
   ],
   "note": ""
  },
  {
   "property": "C51",
   "status": "proved",
   "theorems": [
    "Verif.Props.C51_is_my_format"
   ],
   "note": ""
  },
  {
   "property": "C52",
   "status": "proved",
   "theorems": [
    "Verif.Props.C52_post_process",
    "Verif.Props.C52_unresolved"
   ],
   "note": ""
  },
  {
   "property": "C53",
   "status": "proved",
   "theorems": [
    "Verif.Props.C53_parse",
    "Verif.Props.C53_read",
    "Verif.Props.C53_second_property"
   ],
   "note": "Encoder of well-formed files in Spec/GdsiiFile.lean; the parser is run from a state in which p_data is set (see C46)."
  },
  {
   "property": "C54",
   "status": "proved",
   "theorems": [
    "Verif.Props.C54_history",
    "Verif.Props.C54_set_matrix_null",
    "Verif.Props.C54_process",
    "Verif.Props.C54_process_throws",
    "Verif.Props.C54_intersection"
   ],
   "note": ""
  },
  {
   "property": "C55",
   "status": "proved",
   "theorems": [
    "Verif.Props.C55_print",
    "Verif.Props.C55_injective"
   ],
   "note": ""
  },
  {
   "property": "C56",
   "status": "proved",
   "theorems": [
    "Verif.Props.C56_randm",
    "Verif.Props.C56_same_second"
   ],
   "note": ""
  },
  {
   "property": "C57",
   "status": "proved",
   "theorems": [
    "Verif.Props.C57_outcome",
    "Verif.Props.C57_any_file",
    "Verif.Props.C57_read",
    "Verif.Props.C57_missing_file"
   ],
   "note": "p_data set (see C46); the layout read into may hold earlier libraries whose layers are not enumerated yet."
  },
  {
   "property": "C58",
   "status": "proved",
   "theorems": [
    "Verif.Props.C58_destroy",
    "Verif.Props.C58_strict",
    "Verif.Props.C58_copy",
    "Verif.Props.C58_gdsii",
    "Verif.Props.C58_msk"
   ],
   "note": ""
  },
  {
   "property": "C59",
   "status": "proved",
   "theorems": [
    "Verif.Props.C59_prefix",
    "Verif.Props.C59_design"
   ],
   "note": ""
  },
  {
   "property": "C60",
   "status": "proved",
   "theorems": [
    "Verif.Props.C60_causes",
    "Verif.Props.C60_padded",
    "Verif.Props.C60_cut_in_dates"
   ],
   "note": ""
  },
  {
   "property": "C61",
   "status": "proved",
   "theorems": [
    "Verif.Props.C61_unknown",
    "Verif.Props.C61_out_of_place",
    "Verif.Props.C61_array_reference"
   ],
   "note": ""
  },
  {
   "property": "C62",
   "status": "proved",
   "theorems": [
    "Verif.Props.C62_file_to_bitmaps",
    "Verif.Props.C62_whole_layout",
    "Verif.Props.C62_saved"
   ],
   "note": "Composition of reader, generator, rasteriser and file format."
  },
  {
   "property": "C63",
   "status": "proved",
   "theorems": [
    "Verif.Props.C63_layers_hold_nothing",
    "Verif.Props.C63_gdsii_dark"
   ],
   "note": ""
  },
  {
   "property": "C64",
   "status": "proved",
   "theorems": [
    "Verif.Props.C64_history",
    "Verif.Props.C64_last_flush"
   ],
   "note": ""
  },
  {
   "property": "C65",
   "status": "proved",
   "theorems": [
    "Verif.Props.C65_moved_together",
    "Verif.Props.C65_moved_together_double",
    "Verif.Props.C65_double_not_invariant"
   ],
   "note": ""
  },
  {
   "property": "C66",
   "status": "proved",
   "theorems": [
    "Verif.Props.C66_bands",
    "Verif.Props.C66_bands_complete",
    "Verif.Props.C66_bands_too_many",
    "Verif.Props.C66_bands_too_many_columns",
    "Verif.Props.C66_bands_empty",
    "Verif.Props.C66_workspaces",
    "Verif.Props.C66_cover",
    "Verif.Props.C66_cover_exact",
    "Verif.Props.C66_double_gap",
    "Verif.Props.C66_count_positive"
   ],
   "note": ""
  },
  {
   "property": "C67",
   "status": "proved",
   "theorems": [
    "Verif.Props.C67_exact",
    "Verif.Props.C67_count",
    "Verif.Props.C67_distribution",
    "Verif.Props.C67_small",
    "Verif.Props.C67_no_fragments",
    "Verif.Props.C67_last_big"
   ],
   "note": ""
  },
  {
   "property": "C68",
   "status": "proved",
   "theorems": [
    "Verif.Props.C68_sticking_out",
    "Verif.Props.C68_right_of_window",
    "Verif.Props.C68_left_of_window",
    "Verif.Props.C68_no_cell_size",
    "Verif.Props.C68_shared",
    "Verif.Props.C68_top_edge",
    "Verif.Props.C68_raw"
   ],
   "note": ""
  },
  {
   "property": "C69",
   "status": "proved",
   "theorems": [
    "Verif.Props.C69_never_stored",
    "Verif.Props.C69_out_of_step",
    "Verif.Props.C69_without_attr"
   ],
   "note": ""
  },
  {
   "property": "C70",
   "status": "proved",
   "theorems": [
    "Verif.Props.C70_code",
    "Verif.Props.C70_raw",
    "Verif.Props.C70_overrun",
    "Verif.Props.C70_otherwise",
    "Verif.Props.C70_flag",
    "Verif.Props.C70_strict",
    "Verif.Props.C70_read_file",
    "Verif.Props.C70_own_hash"
   ],
   "note": ""
  },
  {
   "property": "C71",
   "status": "proved",
   "theorems": [
    "Verif.Props.C71_similar",
    "Verif.Props.C71_compare",
    "Verif.Props.C71_different",
    "Verif.Props.C71_files",
    "Verif.Props.C71_similar_local"
   ],
   "note": ""
  },
  {
   "property": "C72",
   "status": "proved",
   "theorems": [
    "Verif.Props.C72_exact",
    "Verif.Props.C72_left_top",
    "Verif.Props.C72_can_shrink",
    "Verif.Props.C72_left_top_double"
   ],
   "note": ""
  },
  {
   "property": "C73",
   "status": "proved",
   "theorems": [
    "Verif.Props.C73_exact",
    "Verif.Props.C73_columns_lost",
    "Verif.Props.C73_rows_lost",
    "Verif.Props.C73_nothing_drawn",
    "Verif.Props.C73_nothing_drawn_rows",
    "Verif.Props.C73_fragment"
   ],
   "note": ""
  },
  {
   "property": "C74",
   "status": "proved",
   "theorems": [
    "Verif.Props.C74_lookup",
    "Verif.Props.C74_similar_found",
    "Verif.Props.C74_different_not_found",
    "Verif.Props.C74_files"
   ],
   "note": ""
  },
  {
   "property": "C75",
   "status": "proved",
   "theorems": [
    "Verif.Props.C75_balance",
    "Verif.Props.C75_next",
    "Verif.Props.C75_frame",
    "Verif.Props.C75_standard"
   ],
   "note": ""
  },
  {
   "property": "C76",
   "status": "proved",
   "theorems": [
    "Verif.Props.C76_geometry",
    "Verif.Props.C76_process",
    "Verif.Props.C76_not_mirrored"
   ],
   "note": ""
  },
  {
   "property": "C77",
   "status": "proved",
   "theorems": [
    "Verif.Props.C77_square_refused",
    "Verif.Props.C77_stored_bitmap_lost",
    "Verif.Props.C77_too_many_rows",
    "Verif.Props.C77_base64_request",
    "Verif.Props.C77_byte_encode",
    "Verif.Props.C77_text_length",
    "Verif.Props.C77_granted",
    "Verif.Props.C77_out_of_proportion"
   ],
   "note": ""
  },
  {
   "property": "C78",
   "status": "proved",
   "theorems": [
    "Verif.Props.C78_not",
    "Verif.Props.C78_text_never_wrong",
    "Verif.Props.C78_file_never_wrong",
    "Verif.Props.C78_read",
    "Verif.Props.C78_rle_silent"
   ],
   "note": ""
  },
  {
   "property": "C79",
   "status": "proved",
   "theorems": [
    "Verif.Props.C79_assign_returns",
    "Verif.Props.C79_assign_throws",
    "Verif.Props.C79_strong",
    "Verif.Props.C79_trap",
    "Verif.Props.C79_layout_assign",
    "Verif.Props.C79_move_terminates"
   ],
   "note": ""
  },
  {
   "property": "C80",
   "status": "proved",
   "theorems": [
    "Verif.Props.C80_exact",
    "Verif.Props.C80_double",
    "Verif.Props.C80_double_not_invariant"
   ],
   "note": ""
  },
  {
   "property": "C81",
   "status": "proved",
   "theorems": [
    "Verif.Props.C81_exclusive",
    "Verif.Props.C81_bytes",
    "Verif.Props.C81_same",
    "Verif.Props.C81_same_final",
    "Verif.Props.C81_one_writer",
    "Verif.Props.C81_mixed"
   ],
   "note": ""
  },
  {
   "property": "C82",
   "status": "proved",
   "theorems": [
    "Verif.Props.C82_generator",
    "Verif.Props.C82_rasteriser",
    "Verif.Props.C82_fragment",
    "Verif.Props.C82_fragment_plan",
    "Verif.Props.C82_ratios",
    "Verif.Props.C82_coefficients",
    "Verif.Props.C82_gdsii_read",
    "Verif.Props.C82_gdsii_write",
    "Verif.Props.C82_subnormal"
   ],
   "note": ""
  },
  {
   "property": "C83",
   "status": "proved",
   "theorems": [
    "Verif.Props.C83_false",
    "Verif.Props.C83_double_delete",
    "Verif.Props.C83_nothing",
    "Verif.Props.C83_true",
    "Verif.Props.C83_second",
    "Verif.Props.C83_destroy",
    "Verif.Props.C83_dangling",
    "Verif.Props.C83_lost_lines",
    "Verif.Props.C83_no_failure",
    "Verif.Props.C83_no_throw",
    "Verif.Props.C83_reuse",
    "Verif.Props.C83_null",
    "Verif.Props.C83_open_stream"
   ],
   "note": ""
  },
  {
   "property": "C84",
   "status": "proved",
   "theorems": [
    "Verif.Props.C84_ascii",
    "Verif.Props.C84_not_found",
    "Verif.Props.C84_found",
    "Verif.Props.C84_mojibake",
    "Verif.Props.C84_names",
    "Verif.Props.C84_same_file"
   ],
   "note": ""
  },
  {
   "property": "C85",
   "status": "proved",
   "theorems": [
    "Verif.Props.C85_zero_deltas",
    "Verif.Props.C85_fresh",
    "Verif.Props.C85_not_finite",
    "Verif.Props.C85_zero_accepted"
   ],
   "note": ""
  },
  {
   "property": "C86",
   "status": "proved",
   "theorems": [
    "Verif.Props.C86_get",
    "Verif.Props.C86_set",
    "Verif.Props.C86_set_byte"
   ],
   "note": ""
  },
  {
   "property": "C87",
   "status": "proved",
   "theorems": [
    "Verif.Props.C87_cut",
    "Verif.Props.C87_cut_rows",
    "Verif.Props.C87_same",
    "Verif.Props.C87_same_rows",
    "Verif.Props.C87_cut_double",
    "Verif.Props.C87_cut_rows_double",
    "Verif.Props.C87_files",
    "Verif.Props.C87_files_rows"
   ],
   "note": ""
  },
  {
   "property": "C88",
   "status": "proved",
   "theorems": [
    "Verif.Props.C88_same_set",
    "Verif.Props.C88_same_set_returns",
    "Verif.Props.C88_files"
   ],
   "note": ""
  },
  {
   "property": "C89",
   "status": "proved",
   "theorems": [
    "Verif.Props.C89_union",
    "Verif.Props.C89_superset",
    "Verif.Props.C89_added",
    "Verif.Props.C89_files"
   ],
   "note": ""
  },
  {
   "property": "C90",
   "status": "proved",
   "theorems": [
    "Verif.Props.C90_windows",
    "Verif.Props.C90_windows_double",
    "Verif.Props.C90_crossing",
    "Verif.Props.C90_crossing_double",
    "Verif.Props.C90_files"
   ],
   "note": ""
  },
  {
   "property": "C91",
   "status": "proved",
   "theorems": [
    "Verif.Props.C91_one_rectangle",
    "Verif.Props.C91_disjoint",
    "Verif.Props.C91_area",
    "Verif.Props.C91_compare",
    "Verif.Props.C91_finer",
    "Verif.Props.C91_compare_finer",
    "Verif.Props.C91_two_grids",
    "Verif.Props.C91_files",
    "Verif.Props.C91_compare_files"
   ],
   "note": ""
  },
  {
   "property": "C92",
   "status": "proved",
   "theorems": [
    "Verif.Props.C92_equal",
    "Verif.Props.C92_decided",
    "Verif.Props.C92_gap",
    "Verif.Props.C92_at_most",
    "Verif.Props.C92_files",
    "Verif.Props.C92_ranking"
   ],
   "note": ""
  },
  {
   "property": "C93",
   "status": "proved",
   "theorems": [
    "Verif.Props.C93_pointer",
    "Verif.Props.C93_overwritten",
    "Verif.Props.C93_forgets",
    "Verif.Props.C93_copy",
    "Verif.Props.C93_survives",
    "Verif.Props.C93_separate",
    "Verif.Props.C93_keep",
    "Verif.Props.C93_again"
   ],
   "note": ""
  },
  {
   "property": "C94",
   "status": "proved",
   "theorems": [
    "Verif.Props.C94_zoom_double",
    "Verif.Props.C94_zoom",
    "Verif.Props.C94_bitmaps",
    "Verif.Props.C94_files"
   ],
   "note": ""
  },
  {
   "property": "C95",
   "status": "proved",
   "theorems": [
    "Verif.Props.C95_code_size",
    "Verif.Props.C95_text_exact",
    "Verif.Props.C95_text_size",
    "Verif.Props.C95_boxes",
    "Verif.Props.C95_drawn",
    "Verif.Props.C95_files"
   ],
   "note": ""
  },
  {
   "property": "C96",
   "status": "proved",
   "theorems": [
    "Verif.Props.C96_short_text",
    "Verif.Props.C96_read_file",
    "Verif.Props.C96_signed"
   ],
   "note": ""
  },
  {
   "property": "C97",
   "status": "proved",
   "theorems": [
    "Verif.Props.C97_content",
    "Verif.Props.C97_ratio",
    "Verif.Props.C97_large_equal",
    "Verif.Props.C97_files"
   ],
   "note": ""
  },
  {
   "property": "C98",
   "status": "proved",
   "theorems": [
    "Verif.Props.C98_rewrite",
    "Verif.Props.C98_same_text",
    "Verif.Props.C98_grows"
   ],
   "note": ""
  },
  {
   "property": "C99",
   "status": "proved",
   "theorems": [
    "Verif.Props.C99_count",
    "Verif.Props.C99_counts_exist",
    "Verif.Props.C99_counts_agree",
    "Verif.Props.C99_at_most",
    "Verif.Props.C99_doubles",
    "Verif.Props.C99_offset"
   ],
   "note": ""
  },
  {
   "property": "C100",
   "status": "proved",
   "theorems": [
    "Verif.Props.C100_flattened",
    "Verif.Props.C100_unflattened",
    "Verif.Props.C100_at_least",
    "Verif.Props.C100_default_box",
    "Verif.Props.C100_exponential"
   ],
   "note": ""
  },
  {
   "property": "C101",
   "status": "proved",
   "theorems": [
    "Verif.Props.C101_paths_at_origin",
    "Verif.Props.C101_paths_invisible",
    "Verif.Props.C101_redrawn"
   ],
   "note": ""
  },
  {
   "property": "C102",
   "status": "proved",
   "theorems": [
    "Verif.Props.C102_same_rectangles",
    "Verif.Props.C102_rectangles_only"
   ],
   "note": ""
  },
  {
   "property": "C103",
   "status": "proved",
   "theorems": [
    "Verif.Props.C103_same_first",
    "Verif.Props.C103_one_layer",
    "Verif.Props.C103_second_lost",
    "Verif.Props.C103_none"
   ],
   "note": ""
  },
  {
   "property": "C104",
   "status": "proved",
   "theorems": [
    "Verif.Props.C104_dark_or_alike",
    "Verif.Props.C104_retry",
    "Verif.Props.C104_enough",
    "Verif.Props.C104_returns",
    "Verif.Props.C104_need",
    "Verif.Props.C104_init_once"
   ],
   "note": ""
  },
  {
   "property": "C105",
   "status": "proved",
   "theorems": [
    "Verif.Props.C105_geometry",
    "Verif.Props.C105_rectangle",
    "Verif.Props.C105_polygon",
    "Verif.Props.C105_one_matrix_decides"
   ],
   "note": ""
  },
  {
   "property": "C106",
   "status": "proved",
   "theorems": [
    "Verif.Props.C106_draws_as_source",
    "Verif.Props.C106_layers_lost",
    "Verif.Props.C106_init"
   ],
   "note": ""
  }
 ]
}