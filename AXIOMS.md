# Axioms of the theorems in MANIFEST.json

Output of `#print axioms`, by `tools/gen_axioms.py`.

| property | theorem | axioms |
|---|---|---|
| C01 | `Grate.Props.C01_open_dispatch` | propext, Classical.choice, Quot.sound |
| C01 | `Grate.Props.C01_open_order_independent` | propext, Quot.sound |
| C01 | `Grate.Props.C01_witness` | propext, Quot.sound |
| C02 | `Grate.Props.C02_open_trace` | propext, Classical.choice, Quot.sound |
| C02 | `Grate.Props.C02_unknown_iff` | propext, Classical.choice, Quot.sound |
| C03 | `Grate.Props.C03_wrap_recognised` | propext, Quot.sound |
| C03 | `Grate.Props.C03_wrap_two` | propext, Quot.sound |
| C03 | `Grate.Props.C03_wrap_one` | propext |
| C03 | `Grate.Props.C03_wrap_message` | propext |
| C03 | `Grate.Props.C03_only_second` | propext, Quot.sound |
| C03 | `Grate.Props.C03_first_position_not_recognised` | propext, Quot.sound |
| C04 | `Grate.Props.C04_tsv_roundtrip` | propext, Classical.choice, Quot.sound |
| C05 | `Grate.Props.C05_tsv_lossless` | propext, Classical.choice, Quot.sound |
| C05 | `Grate.Props.C05_rows_unique` | propext, Classical.choice, Quot.sound |
| C06 | `Grate.Props.C06_order_independent` | propext, Classical.choice, Quot.sound |
| C06 | `Grate.Props.C06_rule` | propext, Classical.choice, Quot.sound |
| C06 | `Grate.Props.C06_witness` | propext, Classical.choice, Quot.sound |
| C07 | `Grate.Props.C07_csv_never_opens` | propext, Classical.choice, Quot.sound |
| C07 | `Grate.Props.C07_counterexample` | propext, Classical.choice, Quot.sound |
| C07 | `Grate.Props.C07_csv_declines_partial` | propext, Classical.choice, Quot.sound |
| C08 | `Grate.Props.C08_cursor` | propext, Classical.choice, Quot.sound |
| C08 | `Grate.Props.C08_drain` | propext, Classical.choice, Quot.sound |
| C08 | `Grate.Props.C08_isEmpty` | propext, Classical.choice, Quot.sound |
| C09 | `Grate.Props.C09_scan_position` | propext, Quot.sound |
| C09 | `Grate.Props.C09_scan_width` | propext |
| C09 | `Grate.Props.C09_scan_fill` | propext, Classical.choice, Quot.sound |
| C10 | `Grate.Props.C10_last_write_wins` | propext, Classical.choice, Quot.sound |
| C11 | `Grate.Props.C11_put_no_panic` | propext, Classical.choice, Quot.sound |
| C11 | `Grate.Props.C11_witness` | propext, Classical.choice, Quot.sound |
| C11 | `Grate.Props.C11_negative_resize_counterexample` | propext, Classical.choice, Quot.sound |
| C12 | `Grate.Props.C12_rectangular` | propext, Classical.choice, Quot.sound |
| C12 | `Grate.Props.C12_witness` | propext, Classical.choice, Quot.sound |
| C12 | `Grate.Props.C12_shrink_counterexample` | propext, Classical.choice, Quot.sound |
| C13 | `Grate.Props.C13_cursor` | propext, Quot.sound |
| C13 | `Grate.Props.C13_drain` | propext, Quot.sound |
| C13 | `Grate.Props.C13_drain_raw` | propext, Classical.choice, Quot.sound |
| C13 | `Grate.Props.C13_written_row_visited` | propext, Classical.choice, Quot.sound |
| C13 | `Grate.Props.C13_extra_row` | propext, Classical.choice, Quot.sound |
| C14 | `Grate.Props.C14_types_truthful_partial` | propext, Classical.choice, Quot.sound |
| C14 | `Grate.Props.C14_numeric_dates_partial` | propext, Classical.choice, Quot.sound |
| C14 | `Grate.Props.C14_date_counterexample` | propext, Classical.choice, Quot.sound |
| C15 | `Grate.Props.C15_scan_partial` | propext, Classical.choice, Quot.sound |
| C15 | `Grate.Props.C15_never_invalid_scan_type` | propext, Classical.choice, Quot.sound |
| C15 | `Grate.Props.C15_counterexample` | propext |
| C15 | `Grate.Props.C15_witness` | propext |
| C16 | `Grate.Props.C16_marker` | propext, Classical.choice, Quot.sound |
| C16 | `Grate.Props.C16_text` | propext, Classical.choice, Quot.sound |
| C16 | `Grate.Props.C16_marker_sheet` | propext, Classical.choice, Quot.sound |
| C17 | `Grate.Props.C17_isEmpty_partial` | propext, Classical.choice, Quot.sound |
| C17 | `Grate.Props.C17_fresh` | none |
| C17 | `Grate.Props.C17_counterexample` | propext, Classical.choice, Quot.sound |
| C18 | `Grate.Props.C18_ignored_partial` | propext |
| C18 | `Grate.Props.C18_written` | propext, Classical.choice, Quot.sound |
| C18 | `Grate.Props.C18_counterexample` | propext |
| C19 | `Grate.Props.C19_fits` | propext, Quot.sound |
| C19 | `Grate.Props.C19_never_wrong_partial` | propext, Quot.sound |
| C19 | `Grate.Props.C19_uint_counterexample` | propext, Quot.sound |
| C19 | `Grate.Props.C19_witness` | propext, Quot.sound |
| C20 | `Grate.Props.C20_type` | propext, Classical.choice, Quot.sound |
| C20 | `Grate.Props.C20_bool` | propext, Classical.choice, Quot.sound |
| C20 | `Grate.Props.C20_int` | propext, Classical.choice, Quot.sound |
| C20 | `Grate.Props.C20_float` | propext, Classical.choice, Quot.sound |
| C20 | `Grate.Props.C20_str` | propext, Classical.choice, Quot.sound |
| C21 | `Grate.Props.C21_str` | propext, Classical.choice, Quot.sound |
| C21 | `Grate.Props.C21_bool` | propext, Classical.choice, Quot.sound |
| C21 | `Grate.Props.C21_int_less` | propext, Classical.choice, Quot.sound |
| C21 | `Grate.Props.C21_float_less` | propext, Classical.choice, Quot.sound |
| C21 | `Grate.Props.C21_float_equal` | propext, Classical.choice, Quot.sound |
| C21 | `Grate.Props.C21_int_equal_partial` | propext, Classical.choice, Quot.sound |
| C21 | `Grate.Props.C21_int_equal_counterexample` | propext, Classical.choice, Quot.sound |
| C22 | `Grate.Props.C22_nonnumeric_partial` | propext, Classical.choice, Quot.sound |
| C22 | `Grate.Props.C22_numeric_partial` | propext, Classical.choice, Quot.sound |
| C22 | `Grate.Props.C22_witness` | propext, Classical.choice, Quot.sound |
| C22 | `Grate.Props.C22_symmetry_counterexample` | propext, Classical.choice, Quot.sound |
| C22 | `Grate.Props.C22_time_counterexample` | propext, Classical.choice, Quot.sound |
| C22 | `Grate.Props.C22_nan_counterexample` | propext, Classical.choice, Quot.sound |
| C23 | `Grate.Props.C23_builtin_unalterable` | propext, Classical.choice, Quot.sound |
| C24 | `Grate.Props.C24_add_other` | propext |
| C24 | `Grate.Props.C24_first_wins` | propext |
| C24 | `Grate.Props.C24_history` | propext, Classical.choice, Quot.sound |
| C24 | `Grate.Props.C24_general_replaces` | propext |
| C24 | `Grate.Props.C24_witness` | propext |
| C25 | `Grate.Props.C25_get_partial` | propext |
| C25 | `Grate.Props.C25_apply_counterexample` | propext, Classical.choice, Quot.sound |
| C25 | `Grate.Props.C25_witness` | propext |
| C26 | `Grate.Props.C26_commas` | propext, Classical.choice, Quot.sound |
| C26 | `Grate.Props.C26_delete_commas` | propext, Quot.sound |
| C26 | `Grate.Props.C26_groups` | propext, Quot.sound |
| C26 | `Grate.Props.C26_witness` | propext, Classical.choice, Quot.sound |
| C27 | `Grate.Props.C27_neg_parens` | propext, Classical.choice, Quot.sound |
| C28 | `Grate.Props.C28_sections` | propext, Classical.choice, Quot.sound |
| C28 | `Grate.Props.C28_witness` | propext, Classical.choice, Quot.sound |
| C29 | `Grate.Props.C29_tables_agree` | propext, Quot.sound |
| C30 | `Grate.Props.C30_float_partial` | propext, Classical.choice, Quot.sound |
| C30 | `Grate.Props.C30_counterexample` | propext, Classical.choice, Quot.sound |
| C30 | `Grate.Props.C30_truncation_counterexample` | propext, Classical.choice, Quot.sound |
| C30 | `Grate.Props.C30_int_actual` | propext, Classical.choice, Quot.sound |
| C31 | `Grate.Props.C31_calendar` | propext, Classical.choice, Quot.sound |
| C31 | `Grate.Props.C31_epoch` | none |
| C31 | `Grate.Props.C31_day` | propext, Classical.choice, Quot.sound |
| C31 | `Grate.Props.C31_civil` | propext, Classical.choice, Quot.sound |
| C31 | `Grate.Props.C31_consecutive` | propext, Classical.choice, Quot.sound |
| C31 | `Grate.Props.C31_witness` | propext, Classical.choice, Quot.sound |
| C32 | `Grate.Props.C32_digits_partial` | propext, Classical.choice, Quot.sound |
| C32 | `Grate.Props.C32_nearest_partial` | propext, Classical.choice, Quot.sound |
| C32 | `Grate.Props.C32_witness` | propext, Classical.choice, Quot.sound |
| C32 | `Grate.Props.C32_counterexample` | propext, Classical.choice, Quot.sound |
| C32 | `Grate.Props.C32_whole_partial` | propext, Classical.choice, Quot.sound |
| C32 | `Grate.Props.C32_whole_witness` | propext, Classical.choice, Quot.sound |
| C32 | `Grate.Props.C32_render_partial` | propext, Classical.choice, Quot.sound |
| C32 | `Grate.Props.C32_render_witness` | propext, Classical.choice, Quot.sound |
| C32 | `Grate.Props.C32_ends` | propext, Classical.choice, Quot.sound |
| C32 | `Grate.Props.C32_ends_witness` | propext, Classical.choice, Quot.sound |
| C33 | `Grate.Props.C33_read` | propext, Classical.choice, Quot.sound |
| C33 | `Grate.Props.C33_readAll` | propext, Classical.choice, Quot.sound |
| C33 | `Grate.Props.C33_interior_empty` | propext |
| C34 | `Grate.Props.C34_seek_partial` | propext, Classical.choice, Quot.sound |
| C34 | `Grate.Props.C34_terminates` | propext, Classical.choice, Quot.sound |
| C34 | `Grate.Props.C34_invalid` | propext, Quot.sound |
| C34 | `Grate.Props.C34_history` | propext, Classical.choice, Quot.sound |
| C34 | `Grate.Props.C34_counterexample_rewind` | propext, Quot.sound |
| C34 | `Grate.Props.C34_counterexample_end` | propext, Classical.choice, Quot.sound |
| C35 | `Grate.Props.C35_stream` | propext, Classical.choice, Quot.sound |
| C35 | `Grate.Props.C35_file` | propext, Classical.choice, Quot.sound |
| C35 | `Grate.Props.C35_witness` | propext, Classical.choice, Quot.sound |
| C36 | `Grate.Props.C36_mini` | propext, Classical.choice, Quot.sound |
| C36 | `Grate.Props.C36_file_partial` | propext, Classical.choice, Quot.sound |
| C36 | `Grate.Props.C36_witness` | propext, Classical.choice, Quot.sound |
| C36 | `Grate.Props.C36_counterexample` | propext, Classical.choice, Quot.sound |
| C37 | `Grate.Props.C37_terminates_partial` | propext, Quot.sound |
| C37 | `Grate.Props.C37_witness` | propext, Classical.choice, Quot.sound |
| C37 | `Grate.Props.C37_counterexample` | propext, Classical.choice, Quot.sound |
| C37 | `Grate.Props.C37_panic_counterexample` | propext, Classical.choice, Quot.sound |
| C37 | `Grate.Props.C37_whole_partial` | propext, Classical.choice, Quot.sound |
| C37 | `Grate.Props.C37_streams_partial` | propext, Classical.choice, Quot.sound |
| C37 | `Grate.Props.C37_stream_counterexample` | propext, Quot.sound |
| C38 | `Grate.Props.C38_declined` | propext, Quot.sound |
| C38 | `Grate.Props.C38_witness` | propext, Quot.sound |
| C39 | `Grate.Props.C39_list_partial` | propext, Classical.choice, Quot.sound |
| C39 | `Grate.Props.C39_actual` | propext, Classical.choice, Quot.sound |
| C39 | `Grate.Props.C39_counterexample` | propext, Classical.choice, Quot.sound |
| C39 | `Grate.Props.C39_witness` | propext, Classical.choice, Quot.sound |
| C40 | `Grate.Props.C40_chunks` | propext, Classical.choice, Quot.sound |
| C40 | `Grate.Props.C40_same` | propext, Classical.choice, Quot.sound |
| C40 | `Grate.Props.C40_reset` | propext, Classical.choice, Quot.sound |
| C40 | `Grate.Props.C40_witness` | propext, Classical.choice, Quot.sound |
| C40 | `Grate.Props.go_digest` | propext |
| C41 | `Grate.Props.C41_restores_partial` | propext, Classical.choice, Quot.sound |
| C41 | `Grate.Props.C41_actual` | propext, Classical.choice, Quot.sound |
| C41 | `Grate.Props.C41_witness` | propext, Quot.sound |
| C41 | `Grate.Props.C41_counterexample` | propext, Classical.choice, Quot.sound |
| C41 | `Grate.Props.C41_go_counterexample` | propext, Classical.choice, Quot.sound |
| C42 | `Grate.Props.C42_verify` | propext, Classical.choice, Quot.sound |
| C42 | `Grate.Props.C42_witness` | propext, Quot.sound |
| C42 | `Grate.Props.C42_go_witness` | propext, Classical.choice, Quot.sound |
| C43 | `Grate.Props.C43_record` | propext, Quot.sound |
| C43 | `Grate.Props.C43_records` | propext, Quot.sound |
| C43 | `Grate.Props.C43_truncated_partial` | propext, Quot.sound |
| C43 | `Grate.Props.C43_witness` | none |
| C43 | `Grate.Props.C43_counterexample` | propext, Classical.choice, Quot.sound |
| C44 | `Grate.Props.C44_groups` | propext, Classical.choice, Quot.sound |
| C44 | `Grate.Props.load_content` | propext, Classical.choice, Quot.sound |
| C44 | `Grate.Props.C44_witness` | propext |
| C45 | `Grate.Props.C45_sheets` | propext, Classical.choice, Quot.sound |
| C45 | `Grate.Props.C45_complete` | propext, Quot.sound |
| C45 | `Grate.Props.C45_witness` | propext |
| C46 | `Grate.Props.C46_table_partial` | propext, Classical.choice, Quot.sound |
| C46 | `Grate.Props.C46_ends` | propext, Quot.sound |
| C46 | `Grate.Props.C46_witness` | propext |
| C46 | `Grate.Props.C46_counterexample` | propext, Quot.sound |
| C47 | `Grate.Props.C47_short` | propext, Classical.choice, Quot.sound |
| C47 | `Grate.Props.C47_long` | propext, Classical.choice, Quot.sound |
| C47 | `Grate.Props.C47_witness` | none |
| C48 | `Grate.Props.C48_rk_partial` | propext, Classical.choice, Quot.sound |
| C48 | `Grate.Props.C48_integer_100` | propext, Classical.choice, Quot.sound |
| C48 | `Grate.Props.C48_counterexample` | propext, Classical.choice, Quot.sound |
| C48 | `Grate.Props.C48_witness` | propext, Classical.choice, Quot.sound |
| C49 | `Grate.Props.C49_sheet_partial` | propext, Classical.choice, Quot.sound |
| C49 | `Grate.Props.C49_file_partial` | propext, Classical.choice, Quot.sound |
| C49 | `Grate.Props.C49_encrypted_partial` | propext, Classical.choice, Quot.sound |
| C49 | `Grate.Props.C49_witness` | propext, Classical.choice, Quot.sound |
| C49 | `Grate.Props.C49_wide_counterexample` | propext, Quot.sound |
| C50 | `Grate.Props.C50_merge_partial` | propext, Classical.choice, Quot.sound |
| C50 | `Grate.Props.C50_witness` | propext, Classical.choice, Quot.sound |
| C50 | `Grate.Props.C50_counterexample` | propext, Classical.choice, Quot.sound |
| C51 | `Grate.Props.C51_skip_partial` | propext, Classical.choice, Quot.sound |
| C51 | `Grate.Props.C51_witness` | none |
| C51 | `Grate.Props.C51_counterexample` | propext, Classical.choice, Quot.sound |
| C52 | `Grate.Props.C52_decode_partial` | propext, Classical.choice, Quot.sound |
| C52 | `Grate.Props.C52_trims_unique` | propext |
| C52 | `Grate.Props.C52_counterexample` | propext, Quot.sound |
| C53 | `Grate.Props.C53_stream_partial` | propext, Classical.choice, Quot.sound |
| C53 | `Grate.Props.C53_stream_witness` | propext |
| C53 | `Grate.Props.C53_split_partial` | propext, Classical.choice, Quot.sound |
| C53 | `Grate.Props.C53_witness` | none |
| C53 | `Grate.Props.C53_counterexample` | propext, Classical.choice, Quot.sound |
| C53 | `Grate.Props.C53_string_counterexample` | propext, Classical.choice, Quot.sound |
| C53 | `Grate.Props.C53_short_counterexample` | propext, Classical.choice, Quot.sound |
| C54 | `Grate.Props.C54_1900_partial` | propext, Classical.choice, Quot.sound |
| C54 | `Grate.Props.C54_counterexample` | propext, Classical.choice, Quot.sound |
| C55 | `Grate.Props.C55_decode` | propext, Classical.choice, Quot.sound |
| C55 | `Grate.Props.C55_reference` | propext, Classical.choice, Quot.sound |
| C55 | `Grate.Props.C55_distinct` | propext, Classical.choice, Quot.sound |
| C55 | `Grate.Props.C55_all` | propext, Quot.sound |
| C55 | `Grate.Props.C55_witness` | none |
| C55 | `Grate.Props.C55_r1c1` | propext |
| C56 | `Grate.Props.C56_strings` | propext |
| C56 | `Grate.Props.C56_cell` | propext, Classical.choice, Quot.sound |
| C56 | `Grate.Props.C56_witness` | propext, Quot.sound |
| C57 | `Grate.Props.C57_styles_partial` | propext, Classical.choice, Quot.sound |
| C57 | `Grate.Props.C57_witness` | propext, Quot.sound |
| C57 | `Grate.Props.C57_counterexample` | propext |
| C58 | `Grate.Props.C58_cells_partial` | propext, Classical.choice, Quot.sound |
| C58 | `Grate.Props.C58_sheet_partial` | propext, Classical.choice, Quot.sound |
| C58 | `Grate.Props.C58_witness` | propext, Quot.sound |
| C58 | `Grate.Props.C58_counterexample` | propext, Classical.choice, Quot.sound |
| C58 | `Grate.Props.C58_text_counterexample` | propext, Classical.choice, Quot.sound |
| C59 | `Grate.Props.C59_merge` | propext, Classical.choice, Quot.sound |
| C59 | `Grate.Props.C59_witness` | propext, Quot.sound |
| C60 | `Grate.Props.C60_again` | propext, Classical.choice, Quot.sound |
| C60 | `Grate.Props.C60_first` | propext, Classical.choice, Quot.sound |
| C60 | `Grate.Props.C60_unknown` | propext, Classical.choice, Quot.sound |
| C60 | `Grate.Props.C60_listed` | propext, Classical.choice, Quot.sound |
| C60 | `Grate.Props.C60_closed` | propext, Classical.choice, Quot.sound |
| C60 | `Grate.Props.C60_witness` | propext, Classical.choice, Quot.sound |
| C61 | `Grate.Props.C61_open_partial` | propext, Classical.choice, Quot.sound |
| C61 | `Grate.Props.C61_sheet_partial` | propext, Classical.choice, Quot.sound |
| C61 | `Grate.Props.C61_witness` | propext, Quot.sound |
| C61 | `Grate.Props.C61_counterexample` | propext |
| C62 | `Grate.Props.C62_parts_partial` | propext, Quot.sound |
| C62 | `Grate.Props.C62_styles_partial` | propext, Classical.choice, Quot.sound |
| C62 | `Grate.Props.C62_open_partial` | propext, Classical.choice, Quot.sound |
| C62 | `Grate.Props.C62_reference` | propext, Classical.choice, Quot.sound |
| C62 | `Grate.Props.C62_sheet_partial` | propext, Classical.choice, Quot.sound |
| C62 | `Grate.Props.C62_get_partial` | propext, Classical.choice, Quot.sound |
| C62 | `Grate.Props.C58_sheet_partial` | propext, Classical.choice, Quot.sound |
| C62 | `Grate.Props.C62_witness` | propext, Quot.sound |
| C62 | `Grate.Props.C62_sheet_witness` | propext, Classical.choice, Quot.sound |
| C62 | `Grate.Props.C62_counterexample` | propext, Classical.choice, Quot.sound |
| C62 | `Grate.Props.C62_text_counterexample` | propext, Classical.choice, Quot.sound |
| C62 | `Grate.Props.C62_dimension_counterexample` | propext, Classical.choice, Quot.sound |
| C63 | `Grate.Props.C63_log` | propext, Classical.choice, Quot.sound |
| C63 | `Grate.Props.C63_running` | propext, Classical.choice, Quot.sound |
| C63 | `Grate.Props.C63_files` | propext, Classical.choice, Quot.sound |
| C63 | `Grate.Props.C63_witness` | propext, Classical.choice, Quot.sound |
| C64 | `Grate.Props.C64_flushed` | propext, Classical.choice, Quot.sound |
| C64 | `Grate.Props.C64_safe` | propext, Classical.choice, Quot.sound |
| C64 | `Grate.Props.C64_progress_partial` | propext, Classical.choice, Quot.sound |
| C64 | `Grate.Props.C64_terminates` | propext, Classical.choice, Quot.sound |
| C64 | `Grate.Props.C64_exits_partial` | propext, Classical.choice, Quot.sound |
| C64 | `Grate.Props.C64_counterexample` | propext |
| C65 | `Grate.Props.C65_content` | propext, Classical.choice, Quot.sound |
| C65 | `Grate.Props.C65_unique` | propext, Classical.choice, Quot.sound |
| C65 | `Grate.Props.C65_lines` | propext, Quot.sound |
| C65 | `Grate.Props.C65_reopened` | propext, Classical.choice, Quot.sound |
| C65 | `Grate.Props.C65_file` | propext, Classical.choice, Quot.sound |
| C65 | `Grate.Props.C65_witness` | propext |
| C66 | `Grate.Props.C66_decode` | propext, Classical.choice, Quot.sound |
| C66 | `Grate.Props.C66_split` | propext, Classical.choice, Quot.sound |
| C66 | `Grate.Props.C66_unpaired` | propext, Classical.choice, Quot.sound |
| C66 | `Grate.Props.C66_plain` | propext, Classical.choice, Quot.sound |
| C66 | `Grate.Props.C66_encode` | propext, Quot.sound |
| C66 | `Grate.Props.C66_text` | propext, Classical.choice, Quot.sound |
| C66 | `Grate.Props.C66_witness` | none |
| C67 | `Grate.Props.C67_encrypted` | propext, Classical.choice, Quot.sound |
| C67 | `Grate.Props.C67_refused` | propext, Classical.choice, Quot.sound |
| C67 | `Grate.Props.C67_witness` | propext, Quot.sound |
| C68 | `Grate.Props.C68_paths_partial` | propext, Quot.sound |
| C68 | `Grate.Props.C68_counterexample` | propext |
| C69 | `Grate.Props.C65_file` | propext, Classical.choice, Quot.sound |
| C69 | `Grate.Props.C69_columns_partial` | propext, Classical.choice, Quot.sound |
| C69 | `Grate.Props.C69_counterexample` | none |
| C70 | `Grate.Props.C70_decimals_partial` | propext, Classical.choice, Quot.sound |
| C70 | `Grate.Props.C70_integers_partial` | propext, Classical.choice, Quot.sound |
| C70 | `Grate.Props.C70_floats_partial` | propext, Classical.choice, Quot.sound |
| C70 | `Grate.Props.C70_witness` | none |
| C70 | `Grate.Props.C70_witness_value` | propext, Classical.choice, Quot.sound |
| C70 | `Grate.Props.C70_zeros_counterexample` | propext, Classical.choice, Quot.sound |
| C70 | `Grate.Props.C70_text_counterexample` | propext, Classical.choice, Quot.sound |
| C70 | `Grate.Props.C70_rounding_counterexample` | propext, Classical.choice, Quot.sound |
| C71 | `Grate.Props.C71_dates_partial` | propext, Classical.choice, Quot.sound |
| C71 | `Grate.Props.C71_witness` | propext, Classical.choice, Quot.sound |
| C71 | `Grate.Props.C71_minutes_counterexample` | propext |
| C71 | `Grate.Props.C71_weekday_counterexample` | propext |
| C71 | `Grate.Props.C71_ampm_counterexample` | propext |
| C71 | `Grate.Props.C71_elapsed_counterexample` | propext |
| C71 | `Grate.Props.C71_quoted_counterexample` | propext |
| C72 | `Grate.Props.C72_marks` | propext, Classical.choice, Quot.sound |
| C72 | `Grate.Props.C72_sections` | propext, Classical.choice, Quot.sound |
| C72 | `Grate.Props.C72_witness` | propext, Classical.choice, Quot.sound |
| C72 | `Grate.Props.C72_quoted_counterexample` | propext |
| C73 | `Grate.Props.C73_builtin_dates_partial` | propext, Quot.sound |
| C73 | `Grate.Props.C73_witness` | none |
| C73 | `Grate.Props.C73_counterexample` | propext |
| C74 | `Grate.Props.C74_text_partial` | propext, Classical.choice, Quot.sound |
| C74 | `Grate.Props.C74_witness` | none |
| C74 | `Grate.Props.C74_integer_counterexample` | propext, Classical.choice, Quot.sound |
| C74 | `Grate.Props.C74_float_counterexample` | propext, Classical.choice, Quot.sound |
| C74 | `Grate.Props.C74_total_counterexample` | propext, Classical.choice, Quot.sound |
| C74 | `Grate.Props.C74_date_counterexample` | propext, Classical.choice, Quot.sound |
| C74 | `Grate.Props.C74_empty_counterexample` | propext, Classical.choice, Quot.sound |
| C75 | `Grate.Props.C75_plain_partial` | propext, Classical.choice, Quot.sound |
| C75 | `Grate.Props.C75_accounting_partial` | propext, Classical.choice, Quot.sound |
| C75 | `Grate.Props.C75_short_partial` | propext, Classical.choice, Quot.sound |
| C75 | `Grate.Props.C75_witness` | propext, Classical.choice, Quot.sound |
| C75 | `Grate.Props.C75_counterexample` | propext, Classical.choice, Quot.sound |
| C76 | `Grate.Props.C76_apply` | propext, Classical.choice, Quot.sound |
| C76 | `Grate.Props.C76_strings` | propext, Classical.choice, Quot.sound |
| C76 | `Grate.Props.C76_workbook` | propext, Classical.choice, Quot.sound |
| C76 | `Grate.Props.C76_witness` | propext, Classical.choice, Quot.sound |
| C76 | `Grate.Props.C76_strings_witness` | propext |
| C76 | `Grate.Props.C76_workbook_witness` | propext, Classical.choice, Quot.sound |
| C76 | `Grate.Props.C76_counterexample` | propext, Classical.choice, Quot.sound |
| C77 | `Grate.Props.C77_xls_partial` | propext, Classical.choice, Quot.sound |
| C77 | `Grate.Props.C77_witness` | propext, Classical.choice, Quot.sound |
| C77 | `Grate.Props.C77_counterexample` | propext, Classical.choice, Quot.sound |
| C77 | `Grate.Props.C77_encrypted_partial` | propext, Classical.choice, Quot.sound |
| C77 | `Grate.Props.C77_encrypted_witness` | propext, Classical.choice, Quot.sound |
| C77 | `Grate.Props.C77_go_partial` | propext, Classical.choice, Quot.sound |
| C77 | `Grate.Props.C77_go_witness` | propext, Classical.choice, Quot.sound |
| C78 | `Grate.Props.C78_xlsx_partial` | propext, Classical.choice, Quot.sound |
| C78 | `Grate.Props.C95_file` | propext, Classical.choice, Quot.sound |
| C78 | `Grate.Props.C61_witness` | propext, Quot.sound |
| C78 | `Grate.Props.C82_xlsx_witness` | propext, Quot.sound |
| C78 | `Grate.Props.C95_witness` | propext, Classical.choice, Quot.sound |
| C78 | `Grate.Props.C140_file_partial` | propext, Classical.choice, Quot.sound |
| C79 | `Grate.Props.C79_text` | propext, Classical.choice, Quot.sound |
| C79 | `Grate.Props.C79_witness` | propext, Quot.sound |
| C79 | `Grate.Props.C79_plain` | propext, Classical.choice, Quot.sound |
| C79 | `Grate.Props.C79_plain_witness` | propext, Quot.sound |
| C80 | `Grate.Props.C80_column_partial` | propext, Classical.choice, Quot.sound |
| C80 | `Grate.Props.C80_counterexample` | propext, Classical.choice, Quot.sound |
| C80 | `Grate.Props.C80_witness` | none |
| C80 | `Grate.Props.C80_plain_counterexample` | propext, Classical.choice, Quot.sound |
| C81 | `Grate.Props.C81_unknown_partial` | propext, Classical.choice, Quot.sound |
| C81 | `Grate.Props.C81_counterexample` | propext, Classical.choice, Quot.sound |
| C81 | `Grate.Props.C81_compound_counterexample` | propext, Classical.choice, Quot.sound |
| C81 | `Grate.Props.C81_witness` | propext, Quot.sound |
| C82 | `Grate.Props.C82_files` | propext, Classical.choice, Quot.sound |
| C82 | `Grate.Props.C82_error` | propext, Classical.choice, Quot.sound |
| C82 | `Grate.Props.C82_text` | propext, Classical.choice, Quot.sound |
| C82 | `Grate.Props.C82_xls_partial` | propext, Classical.choice, Quot.sound |
| C82 | `Grate.Props.C82_witness` | propext, Classical.choice, Quot.sound |
| C82 | `Grate.Props.C82_xlsx_partial` | propext, Classical.choice, Quot.sound |
| C82 | `Grate.Props.C82_xlsx_witness` | propext, Quot.sound |
| C82 | `Grate.Props.C82_counterexample` | propext, Classical.choice, Quot.sound |
| C82 | `Grate.Props.C82_dialog_witness` | propext, Classical.choice, Quot.sound |
| C82 | `Grate.Props.C82_verbose` | propext, Classical.choice, Quot.sound |
| C82 | `Grate.Props.C82_sheets` | propext, Classical.choice, Quot.sound |
| C82 | `Grate.Props.C82_sheets_witness` | propext, Classical.choice, Quot.sound |
| C82 | `Grate.Props.C82_encrypted_partial` | propext, Classical.choice, Quot.sound |
| C82 | `Grate.Props.C82_encrypted_witness` | propext, Classical.choice, Quot.sound |
| C83 | `Grate.Props.C83_missing` | propext, Classical.choice, Quot.sound |
| C83 | `Grate.Props.C83_witness` | none |
| C84 | `Grate.Props.C84_xls_partial` | propext, Classical.choice, Quot.sound |
| C84 | `Grate.Props.C84_xlsx_partial` | propext, Classical.choice, Quot.sound |
| C84 | `Grate.Props.C84_counterexample` | propext |
| C84 | `Grate.Props.C84_witness` | propext, Classical.choice, Quot.sound |
| C85 | `Grate.Props.C85_xls_partial` | propext, Classical.choice, Quot.sound |
| C85 | `Grate.Props.C85_text` | propext, Classical.choice, Quot.sound |
| C85 | `Grate.Props.C85_xlsx` | propext, Classical.choice, Quot.sound |
| C85 | `Grate.Props.C85_counterexample` | propext, Classical.choice, Quot.sound |
| C85 | `Grate.Props.C85_witness` | propext, Classical.choice, Quot.sound |
| C86 | `Grate.Props.C86_builtin_partial` | propext, Classical.choice, Quot.sound |
| C86 | `Grate.Props.C86_custom_partial` | propext, Classical.choice, Quot.sound |
| C86 | `Grate.Props.C86_days_partial` | propext, Classical.choice, Quot.sound |
| C86 | `Grate.Props.C86_witness` | propext, Classical.choice, Quot.sound |
| C86 | `Grate.Props.C86_hour_counterexample` | propext, Classical.choice, Quot.sound |
| C86 | `Grate.Props.C86_quotes_counterexample` | propext, Classical.choice, Quot.sound |
| C86 | `Grate.Props.C86_elapsed_counterexample` | propext, Classical.choice, Quot.sound |
| C86 | `Grate.Props.C86_tenths_counterexample` | propext, Classical.choice, Quot.sound |
| C86 | `Grate.Props.C86_ampm_counterexample` | propext, Classical.choice, Quot.sound |
| C86 | `Grate.Props.C86_letter_counterexample` | propext, Classical.choice, Quot.sound |
| C87 | `Grate.Props.C87_near_partial` | propext, Classical.choice, Quot.sound |
| C87 | `Grate.Props.C87_second_partial` | propext, Classical.choice, Quot.sound |
| C87 | `Grate.Props.C87_exact_partial` | propext, Classical.choice, Quot.sound |
| C87 | `Grate.Props.C87_witness` | propext, Classical.choice, Quot.sound |
| C87 | `Grate.Props.C87_counterexample` | propext, Classical.choice, Quot.sound |
| C88 | `Grate.Props.C88_fixed_partial` | propext, Classical.choice, Quot.sound |
| C88 | `Grate.Props.C88_grouped_partial` | propext, Classical.choice, Quot.sound |
| C88 | `Grate.Props.C88_parens_partial` | propext, Classical.choice, Quot.sound |
| C88 | `Grate.Props.C88_custom_partial` | propext, Classical.choice, Quot.sound |
| C88 | `Grate.Props.C88_percent_partial` | propext, Classical.choice, Quot.sound |
| C88 | `Grate.Props.C88_custom_percent_partial` | propext, Classical.choice, Quot.sound |
| C88 | `Grate.Props.C88_determined` | propext, Classical.choice, Quot.sound |
| C88 | `Grate.Props.C88_infinite` | propext, Classical.choice, Quot.sound |
| C88 | `Grate.Props.C88_witness` | propext, Classical.choice, Quot.sound |
| C88 | `Grate.Props.C88_percent_counterexample` | propext, Classical.choice, Quot.sound |
| C88 | `Grate.Props.C88_whole_counterexample` | propext, Classical.choice, Quot.sound |
| C89 | `Grate.Props.C89_cents_partial` | propext, Classical.choice, Quot.sound |
| C89 | `Grate.Props.C89_whole_partial` | propext, Classical.choice, Quot.sound |
| C89 | `Grate.Props.C89_negative_counterexample` | propext, Classical.choice, Quot.sound |
| C89 | `Grate.Props.C89_witness` | propext, Classical.choice, Quot.sound |
| C90 | `Grate.Props.C90_science_partial` | propext, Classical.choice, Quot.sound |
| C90 | `Grate.Props.C90_custom_partial` | propext, Classical.choice, Quot.sound |
| C90 | `Grate.Props.C90_witness` | propext, Classical.choice, Quot.sound |
| C90 | `Grate.Props.C90_engineering_counterexample` | propext, Classical.choice, Quot.sound |
| C91 | `Grate.Props.C91_cell` | propext, Classical.choice, Quot.sound |
| C91 | `Grate.Props.C91_text` | propext, Classical.choice, Quot.sound |
| C91 | `Grate.Props.C91_scan` | propext, Classical.choice, Quot.sound |
| C91 | `Grate.Props.C91_coerce` | propext, Classical.choice, Quot.sound |
| C91 | `Grate.Props.C91_determined` | propext, Classical.choice, Quot.sound |
| C91 | `Grate.Props.C91_witness` | propext, Classical.choice, Quot.sound |
| C92 | `Grate.Props.C92_exact` | propext, Classical.choice, Quot.sound |
| C92 | `Grate.Props.C92_zero` | propext, Classical.choice, Quot.sound |
| C92 | `Grate.Props.C92_int` | propext, Classical.choice, Quot.sound |
| C92 | `Grate.Props.C92_cell` | propext, Classical.choice, Quot.sound |
| C92 | `Grate.Props.C92_witness` | propext, Classical.choice, Quot.sound |
| C93 | `Grate.Props.C93_close_partial` | propext, Classical.choice, Quot.sound |
| C93 | `Grate.Props.C93_width_partial` | propext, Classical.choice, Quot.sound |
| C93 | `Grate.Props.C93_counterexample` | propext, Classical.choice, Quot.sound |
| C93 | `Grate.Props.C93_negative_counterexample` | propext, Classical.choice, Quot.sound |
| C93 | `Grate.Props.C93_witness` | propext, Classical.choice, Quot.sound |
| C94 | `Grate.Props.C94_roundtrip` | propext, Classical.choice, Quot.sound |
| C94 | `Grate.Props.C94_text_partial` | propext, Classical.choice, Quot.sound |
| C94 | `Grate.Props.C94_counterexample` | propext, Classical.choice, Quot.sound |
| C94 | `Grate.Props.C94_witness` | propext, Classical.choice, Quot.sound |
| C95 | `Grate.Props.C95_part` | propext, Classical.choice, Quot.sound |
| C95 | `Grate.Props.C95_same` | propext, Classical.choice, Quot.sound |
| C95 | `Grate.Props.C95_file` | propext, Classical.choice, Quot.sound |
| C95 | `Grate.Props.C95_witness` | propext, Classical.choice, Quot.sound |
| C95 | `Grate.Props.C95_text_witness` | propext, Classical.choice, Quot.sound |
| C96 | `Grate.Props.C96_counterexample` | propext, Quot.sound |
| C96 | `Grate.Props.C96_reported_partial` | propext, Classical.choice, Quot.sound |
| C96 | `Grate.Props.C96_witness` | propext, Quot.sound |
| C97 | `Grate.Props.C97_strings_partial` | propext, Quot.sound |
| C97 | `Grate.Props.C97_witness` | propext, Quot.sound |
| C97 | `Grate.Props.C97_counterexample` | propext, Quot.sound |
| C98 | `Grate.Props.C98_plain_partial` | propext |
| C98 | `Grate.Props.C98_witness` | propext |
| C98 | `Grate.Props.C98_counterexample` | propext, Quot.sound |
| C99 | `Grate.Props.C99_1900_partial` | propext, Classical.choice, Quot.sound |
| C99 | `Grate.Props.C99_counterexample` | propext, Classical.choice, Quot.sound |
| C100 | `Grate.Props.C100_dropped` | propext, Classical.choice, Quot.sound |
| C100 | `Grate.Props.C100_counterexample` | propext, Classical.choice, Quot.sound |
| C100 | `Grate.Props.C100_witness` | propext, Quot.sound |
| C100 | `Grate.Props.C58_cells_partial` | propext, Classical.choice, Quot.sound |
| C101 | `Grate.Props.C101_isolated` | propext, Classical.choice, Quot.sound |
| C101 | `Grate.Props.C101_workbook` | propext, Classical.choice, Quot.sound |
| C101 | `Grate.Props.C101_get` | propext, Classical.choice, Quot.sound |
| C101 | `Grate.Props.C101_exclusive` | propext, Classical.choice, Quot.sound |
| C101 | `Grate.Props.C101_progress` | propext, Classical.choice, Quot.sound |
| C101 | `Grate.Props.C101_witness` | propext |
| C102 | `Grate.Props.C102_exact` | propext, Classical.choice, Quot.sound |
| C102 | `Grate.Props.C102_close_partial` | propext, Classical.choice, Quot.sound |
| C102 | `Grate.Props.C102_counterexample` | propext, Classical.choice, Quot.sound |
| C102 | `Grate.Props.C102_witness` | propext, Classical.choice, Quot.sound |
| C103 | `Grate.Props.C103_exact` | propext, Classical.choice, Quot.sound |
| C103 | `Grate.Props.C103_partial` | propext, Classical.choice, Quot.sound |
| C103 | `Grate.Props.C103_counterexample` | propext, Classical.choice, Quot.sound |
| C104 | `Grate.Props.C104_partial` | propext, Classical.choice, Quot.sound |
| C104 | `Grate.Props.C104_counterexample` | propext, Classical.choice, Quot.sound |
| C104 | `Grate.Props.C104_witness` | propext, Classical.choice, Quot.sound |
| C105 | `Grate.Props.C105_counterexample` | propext, Classical.choice, Quot.sound |
| C105 | `Grate.Props.C105_largest` | propext, Classical.choice, Quot.sound |
| C105 | `Grate.Props.C105_text_partial` | propext, Classical.choice, Quot.sound |
| C105 | `Grate.Props.C105_text_witness` | propext, Classical.choice, Quot.sound |
| C106 | `Grate.Props.C106_xls_partial` | propext, Classical.choice, Quot.sound |
| C106 | `Grate.Props.C106_xlsx_partial` | propext, Classical.choice, Quot.sound |
| C106 | `Grate.Props.C106_xlsx_witness` | propext, Quot.sound |
| C106 | `Grate.Props.C106_text` | propext, Classical.choice, Quot.sound |
| C106 | `Grate.Props.C106_counterexample` | propext, Classical.choice, Quot.sound |
| C106 | `Grate.Props.C106_dialog_counterexample` | propext, Classical.choice, Quot.sound |
| C106 | `Grate.Props.C106_dialog_witness` | propext, Classical.choice, Quot.sound |
| C106 | `Grate.Props.C106_encrypted_partial` | propext, Classical.choice, Quot.sound |
| C107 | `Grate.Props.C107_xls` | propext, Classical.choice, Quot.sound |
| C107 | `Grate.Props.C107_xlsx` | propext, Classical.choice, Quot.sound |
| C107 | `Grate.Props.C107_counterexample` | propext, Classical.choice, Quot.sound |
| C107 | `Grate.Props.C106_xls_partial` | propext, Classical.choice, Quot.sound |
| C107 | `Grate.Props.C106_encrypted_partial` | propext, Classical.choice, Quot.sound |
| C107 | `Grate.Props.C106_xlsx_partial` | propext, Classical.choice, Quot.sound |
| C108 | `Grate.Props.C108_open_partial` | propext, Classical.choice, Quot.sound |
| C108 | `Grate.Props.C108_witness` | propext, Classical.choice, Quot.sound |
| C108 | `Grate.Props.C108_counterexample` | propext, Classical.choice, Quot.sound |
| C108 | `Grate.Props.C37_whole_partial` | propext, Classical.choice, Quot.sound |
| C108 | `Grate.Props.C37_streams_partial` | propext, Classical.choice, Quot.sound |
| C109 | `Grate.Props.C109_number_partial` | propext, Classical.choice, Quot.sound |
| C109 | `Grate.Props.C109_small_partial` | propext, Classical.choice, Quot.sound |
| C109 | `Grate.Props.C109_witness` | propext |
| C109 | `Grate.Props.C109_counterexample` | propext, Classical.choice, Quot.sound |
| C110 | `Grate.Props.C110_sheet_partial` | propext, Classical.choice, Quot.sound |
| C110 | `Grate.Props.C110_open_partial` | propext, Classical.choice, Quot.sound |
| C110 | `Grate.Props.C110_witness` | propext, Classical.choice, Quot.sound |
| C110 | `Grate.Props.C110_counterexample` | propext, Classical.choice, Quot.sound |
| C111 | `Grate.Props.C111_open_partial` | propext, Classical.choice, Quot.sound |
| C111 | `Grate.Props.C111_again_partial` | propext, Classical.choice, Quot.sound |
| C111 | `Grate.Props.C111_exported_partial` | propext, Classical.choice, Quot.sound |
| C111 | `Grate.Props.C111_witness` | propext, Classical.choice, Quot.sound |
| C111 | `Grate.Props.C111_long_counterexample` | propext, Classical.choice, Quot.sound |
| C111 | `Grate.Props.C111_ragged_counterexample` | propext, Classical.choice, Quot.sound |
| C112 | `Grate.Props.C112_opener` | propext, Classical.choice, Quot.sound |
| C112 | `Grate.Props.C112_open` | propext, Classical.choice, Quot.sound |
| C112 | `Grate.Props.C112_witness` | propext, Classical.choice, Quot.sound |
| C113 | `Grate.Props.C113_name` | propext, Classical.choice, Quot.sound |
| C113 | `Grate.Props.C113_seen` | propext, Classical.choice, Quot.sound |
| C113 | `Grate.Props.C113_witness` | propext, Classical.choice, Quot.sound |
| C114 | `Grate.Props.C114_opener` | propext, Classical.choice, Quot.sound |
| C114 | `Grate.Props.C114_open` | propext, Classical.choice, Quot.sound |
| C114 | `Grate.Props.C114_witness` | propext, Classical.choice, Quot.sound |
| C115 | `Grate.Props.C115_opener` | propext, Classical.choice, Quot.sound |
| C115 | `Grate.Props.C115_open` | propext, Classical.choice, Quot.sound |
| C115 | `Grate.Props.C115_file` | propext, Classical.choice, Quot.sound |
| C115 | `Grate.Props.C115_witness` | propext, Classical.choice, Quot.sound |
| C116 | `Grate.Props.C116_workbook` | propext, Classical.choice, Quot.sound |
| C116 | `Grate.Props.C116_listed` | propext, Classical.choice, Quot.sound |
| C116 | `Grate.Props.C116_witness` | propext, Classical.choice, Quot.sound |
| C116 | `Grate.Props.C116_text_counterexample` | propext, Classical.choice, Quot.sound |
| C117 | `Grate.Props.C117_opener` | propext, Classical.choice, Quot.sound |
| C117 | `Grate.Props.C117_open` | propext, Classical.choice, Quot.sound |
| C117 | `Grate.Props.C117_witness` | propext, Classical.choice, Quot.sound |
| C118 | `Grate.Props.C118_opener` | propext, Classical.choice, Quot.sound |
| C118 | `Grate.Props.C118_open` | propext, Classical.choice, Quot.sound |
| C118 | `Grate.Props.C118_crlf` | propext, Classical.choice, Quot.sound |
| C118 | `Grate.Props.C118_final` | propext, Classical.choice, Quot.sound |
| C118 | `Grate.Props.C118_limit` | propext, Classical.choice, Quot.sound |
| C118 | `Grate.Props.C118_witness` | propext, Quot.sound |
| C119 | `Grate.Props.C119_open_partial` | propext, Classical.choice, Quot.sound |
| C119 | `Grate.Props.C119_counterexample` | propext, Classical.choice, Quot.sound |
| C119 | `Grate.Props.C119_witness` | propext |
| C120 | `Grate.Props.C120_file_partial` | propext, Classical.choice, Quot.sound |
| C120 | `Grate.Props.C120_decided_partial` | propext, Classical.choice, Quot.sound |
| C120 | `Grate.Props.C120_witness` | propext, Classical.choice, Quot.sound |
| C121 | `Grate.Props.C121_partial` | propext, Classical.choice, Quot.sound |
| C121 | `Grate.Props.C121_witness` | propext, Classical.choice, Quot.sound |
| C121 | `Grate.Props.C121_counterexample` | propext, Classical.choice, Quot.sound |
| C122 | `Grate.Props.C122_xls_partial` | propext, Classical.choice, Quot.sound |
| C122 | `Grate.Props.C122_xls_numbering_partial` | propext, Classical.choice, Quot.sound |
| C122 | `Grate.Props.C122_xlsx_partial` | propext, Classical.choice, Quot.sound |
| C122 | `Grate.Props.C122_xlsx_numbering_partial` | propext, Classical.choice, Quot.sound |
| C122 | `Grate.Props.C122_witness` | propext, Classical.choice, Quot.sound |
| C122 | `Grate.Props.C122_numbering_witness` | propext, Classical.choice, Quot.sound |
| C122 | `Grate.Props.C122_xlsx_witness` | propext, Classical.choice, Quot.sound |
| C122 | `Grate.Props.C122_xlsx_numbering_witness` | propext, Classical.choice, Quot.sound |
| C122 | `Grate.Props.C49_wide_counterexample` | propext, Quot.sound |
| C123 | `Grate.Props.C123_disk_partial` | propext, Classical.choice, Quot.sound |
| C123 | `Grate.Props.C123_running_partial` | propext, Classical.choice, Quot.sound |
| C123 | `Grate.Props.C123_same_partial` | propext, Classical.choice, Quot.sound |
| C123 | `Grate.Props.C123_sheets_partial` | propext, Classical.choice, Quot.sound |
| C123 | `Grate.Props.C123_exits_partial` | propext, Classical.choice, Quot.sound |
| C123 | `Grate.Props.C123_witness` | propext, Classical.choice, Quot.sound |
| C123 | `Grate.Props.C123_mixed_counterexample` | propext, Classical.choice, Quot.sound |
| C123 | `Grate.Props.C123_crash_counterexample` | propext |
| C124 | `Grate.Props.C124_cut_partial` | propext, Classical.choice, Quot.sound |
| C124 | `Grate.Props.C124_spare_partial` | propext, Classical.choice, Quot.sound |
| C124 | `Grate.Props.C124_header` | propext, Classical.choice, Quot.sound |
| C124 | `Grate.Props.C124_counterexample` | propext, Classical.choice, Quot.sound |
| C124 | `Grate.Props.C124_text_counterexample` | propext, Classical.choice, Quot.sound |
| C124 | `Grate.Props.C124_witness` | propext, Classical.choice, Quot.sound |
| C125 | `Grate.Props.C125_opener` | propext, Classical.choice, Quot.sound |
| C125 | `Grate.Props.C125_open_partial` | propext, Classical.choice, Quot.sound |
| C125 | `Grate.Props.C125_sheet` | propext, Classical.choice, Quot.sound |
| C125 | `Grate.Props.C125_bytes` | propext, Classical.choice, Quot.sound |
| C125 | `Grate.Props.C125_text_counterexample` | propext, Classical.choice, Quot.sound |
| C125 | `Grate.Props.C125_links_counterexample` | propext, Classical.choice, Quot.sound |
| C125 | `Grate.Props.C125_package_counterexample` | propext, Classical.choice, Quot.sound |
| C125 | `Grate.Props.C125_witness` | propext, Quot.sound |
| C126 | `Grate.Props.C126_xls` | propext, Classical.choice, Quot.sound |
| C126 | `Grate.Props.C126_xlsx_counterexample` | propext, Classical.choice, Quot.sound |
| C126 | `Grate.Props.C126_witness` | propext, Classical.choice, Quot.sound |
| C127 | `Grate.Props.C127_plain_partial` | propext, Classical.choice, Quot.sound |
| C127 | `Grate.Props.C127_counterexample` | propext, Classical.choice, Quot.sound |
| C128 | `Grate.Props.C128_values` | propext, Classical.choice, Quot.sound |
| C128 | `Grate.Props.C128_snapshot` | propext, Classical.choice, Quot.sound |
| C128 | `Grate.Props.C128_sheet` | propext, Classical.choice, Quot.sound |
| C128 | `Grate.Props.C128_witness` | propext, Classical.choice, Quot.sound |
| C129 | `Grate.Props.C129_xlsx_partial` | propext, Classical.choice, Quot.sound |
| C129 | `Grate.Props.C129_xls_partial` | propext, Classical.choice, Quot.sound |
| C129 | `Grate.Props.C129_names_xls` | propext, Classical.choice, Quot.sound |
| C129 | `Grate.Props.C129_text` | propext, Classical.choice, Quot.sound |
| C129 | `Grate.Props.C129_prints` | propext, Classical.choice, Quot.sound |
| C129 | `Grate.Props.C129_formula_counterexample` | propext, Classical.choice, Quot.sound |
| C129 | `Grate.Props.C129_link_counterexample` | propext, Classical.choice, Quot.sound |
| C129 | `Grate.Props.C129_commas_counterexample` | propext, Classical.choice, Quot.sound |
| C129 | `Grate.Props.C129_xlsx_witness` | propext, Classical.choice, Quot.sound |
| C129 | `Grate.Props.C129_xls_witness` | propext, Classical.choice, Quot.sound |
| C129 | `Grate.Props.C129_text_witness` | propext, Classical.choice, Quot.sound |
| C130 | `Grate.Props.C130_xlsx_partial` | propext, Classical.choice, Quot.sound |
| C130 | `Grate.Props.C130_xls_partial` | propext, Classical.choice, Quot.sound |
| C130 | `Grate.Props.C130_xlsx_counterexample` | propext, Classical.choice, Quot.sound |
| C130 | `Grate.Props.C130_xls_counterexample` | propext, Classical.choice, Quot.sound |
| C130 | `Grate.Props.C130_xlsx_witness` | propext, Classical.choice, Quot.sound |
| C131 | `Grate.Props.C131_archive_partial` | propext, Classical.choice, Quot.sound |
| C131 | `Grate.Props.C131_package_partial` | propext, Classical.choice, Quot.sound |
| C131 | `Grate.Props.C131_bare_partial` | propext, Classical.choice, Quot.sound |
| C131 | `Grate.Props.C131_archive_counterexample` | propext, Classical.choice, Quot.sound |
| C131 | `Grate.Props.C131_document_counterexample` | propext, Classical.choice, Quot.sound |
| C131 | `Grate.Props.C131_witness` | propext, Classical.choice, Quot.sound |
| C131 | `Grate.Props.C131_more_witness` | propext, Quot.sound |
| C132 | `Grate.Props.C132_sheet_partial` | propext, Classical.choice, Quot.sound |
| C132 | `Grate.Props.C132_opener_partial` | propext, Classical.choice, Quot.sound |
| C132 | `Grate.Props.C132_open_partial` | propext, Classical.choice, Quot.sound |
| C132 | `Grate.Props.C132_asValues_counterexample` | propext, Classical.choice, Quot.sound |
| C132 | `Grate.Props.C132_counterexample` | propext, Classical.choice, Quot.sound |
| C132 | `Grate.Props.C132_witness` | propext, Classical.choice, Quot.sound |
| C133 | `Grate.Props.C133_partial` | propext, Classical.choice, Quot.sound |
| C133 | `Grate.Props.C133_custom_counterexample` | propext, Classical.choice, Quot.sound |
| C133 | `Grate.Props.C133_witness` | propext, Classical.choice, Quot.sound |
| C134 | `Grate.Props.C134_scan` | propext, Classical.choice, Quot.sound |
| C134 | `Grate.Props.C134_row` | propext, Classical.choice, Quot.sound |
| C134 | `Grate.Props.C134_types_partial` | propext, Classical.choice, Quot.sound |
| C134 | `Grate.Props.C134_integer_counterexample` | propext, Classical.choice, Quot.sound |
| C134 | `Grate.Props.C134_counterexample` | propext, Classical.choice, Quot.sound |
| C134 | `Grate.Props.C134_witness` | propext, Classical.choice, Quot.sound |
| C134 | `Grate.Props.C134_custom_partial` | propext, Classical.choice, Quot.sound |
| C134 | `Grate.Props.C134_custom_counterexample` | propext, Classical.choice, Quot.sound |
| C134 | `Grate.Props.C134_percent_counterexample` | propext, Classical.choice, Quot.sound |
| C134 | `Grate.Props.C134_custom_witness` | propext, Classical.choice, Quot.sound |
| C135 | `Grate.Props.C135_xls_partial` | propext, Classical.choice, Quot.sound |
| C135 | `Grate.Props.C135_xlsx_partial` | propext, Classical.choice, Quot.sound |
| C135 | `Grate.Props.C135_reserved` | propext, Classical.choice, Quot.sound |
| C135 | `Grate.Props.C135_xlsx_reserved` | propext, Classical.choice, Quot.sound |
| C135 | `Grate.Props.C135_counterexample` | propext, Classical.choice, Quot.sound |
| C135 | `Grate.Props.C135_xlsx_witness` | propext, Quot.sound |
| C136 | `Grate.Props.C136_first_part` | propext, Classical.choice, Quot.sound |
| C136 | `Grate.Props.C136_report_partial` | propext, Classical.choice, Quot.sound |
| C136 | `Grate.Props.C136_known` | propext, Classical.choice, Quot.sound |
| C136 | `Grate.Props.C136_unreported` | none |
| C136 | `Grate.Props.C136_counterexample` | propext, Classical.choice, Quot.sound |
| C137 | `Grate.Props.C137_content` | propext, Classical.choice, Quot.sound |
| C137 | `Grate.Props.C137_run` | propext, Classical.choice, Quot.sound |
| C137 | `Grate.Props.C137_open_partial` | propext, Classical.choice, Quot.sound |
| C137 | `Grate.Props.C137_row` | propext |
| C137 | `Grate.Props.C137_counterexample` | propext, Quot.sound |
| C137 | `Grate.Props.C137_witness` | propext, Quot.sound |
| C138 | `Grate.Props.C138_flags_partial` | propext, Classical.choice, Quot.sound |
| C138 | `Grate.Props.C138_unique` | propext, Classical.choice, Quot.sound |
| C138 | `Grate.Props.C138_default` | none |
| C138 | `Grate.Props.C138_ignored` | propext, Classical.choice, Quot.sound |
| C138 | `Grate.Props.C138_counterexample` | propext, Classical.choice, Quot.sound |
| C138 | `Grate.Props.C138_pretend` | propext, Quot.sound |
| C138 | `Grate.Props.C138_witness` | none |
| C139 | `Grate.Props.C139_text` | propext |
| C139 | `Grate.Props.C139_sheet_partial` | propext, Classical.choice, Quot.sound |
| C139 | `Grate.Props.C139_blank_counterexample` | propext, Classical.choice, Quot.sound |
| C139 | `Grate.Props.C139_date_counterexample` | propext, Classical.choice, Quot.sound |
| C139 | `Grate.Props.C139_merged` | propext, Classical.choice, Quot.sound |
| C139 | `Grate.Props.C139_differ_counterexample` | propext |
| C139 | `Grate.Props.C139_witness` | propext |
| C140 | `Grate.Props.C140_members` | propext, Classical.choice, Quot.sound |
| C140 | `Grate.Props.C140_file_partial` | propext, Classical.choice, Quot.sound |
| C140 | `Grate.Props.C140_same` | propext, Classical.choice, Quot.sound |
| C140 | `Grate.Props.C140_declined` | propext, Quot.sound |
| C140 | `Grate.Props.C140_text` | propext, Quot.sound |
| C140 | `Grate.Props.C140_witness` | propext, Classical.choice, Quot.sound |
| C141 | `Grate.Props.C141_detected` | propext, Classical.choice, Quot.sound |
| C141 | `Grate.Props.C141_sheet_partial` | propext, Classical.choice, Quot.sound |
| C141 | `Grate.Props.C141_open` | propext, Classical.choice, Quot.sound |
| C141 | `Grate.Props.C141_counterexample` | propext, Classical.choice, Quot.sound |
| C141 | `Grate.Props.C141_witness` | propext, Classical.choice, Quot.sound |
| C142 | `Grate.Props.C142_checksum` | propext, Quot.sound |
| C142 | `Grate.Props.C142_member` | propext, Classical.choice, Quot.sound |
| C142 | `Grate.Props.C142_sheet_partial` | propext, Classical.choice, Quot.sound |
| C142 | `Grate.Props.C142_open` | propext, Classical.choice, Quot.sound |
| C142 | `Grate.Props.C142_five_counterexample` | propext, Classical.choice, Quot.sound |
| C142 | `Grate.Props.C142_witness` | propext, Classical.choice, Quot.sound |
| C142 | `Grate.Props.C142_five_witness` | propext, Classical.choice, Quot.sound |
| C143 | `Grate.Props.C143_sheet_partial` | propext, Classical.choice, Quot.sound |
| C143 | `Grate.Props.C143_file_partial` | propext, Classical.choice, Quot.sound |
| C143 | `Grate.Props.C143_counterexample` | propext, Classical.choice, Quot.sound |
| C143 | `Grate.Props.C143_witness` | propext, Classical.choice, Quot.sound |
| C144 | `Grate.Props.C144_truth_partial` | propext, Classical.choice, Quot.sound |
| C144 | `Grate.Props.C144_xls` | propext, Classical.choice, Quot.sound |
| C144 | `Grate.Props.C144_xlsx_partial` | propext, Classical.choice, Quot.sound |
| C144 | `Grate.Props.C144_number_counterexample` | propext, Classical.choice, Quot.sound |
| C144 | `Grate.Props.C144_shown_counterexample` | propext, Classical.choice, Quot.sound |
| C144 | `Grate.Props.C144_error_counterexample` | propext, Classical.choice, Quot.sound |
| C144 | `Grate.Props.C144_witness` | propext, Classical.choice, Quot.sound |
| C145 | `Grate.Props.C145_sheet_partial` | propext, Classical.choice, Quot.sound |
| C145 | `Grate.Props.C145_file_partial` | propext, Classical.choice, Quot.sound |
| C145 | `Grate.Props.C145_counterexample` | propext, Classical.choice, Quot.sound |
| C145 | `Grate.Props.C145_link_counterexample` | propext, Classical.choice, Quot.sound |
| C145 | `Grate.Props.C145_witness` | propext, Classical.choice, Quot.sound |
| C146 | `Grate.Props.C146_shown_partial` | propext, Classical.choice, Quot.sound |
| C146 | `Grate.Props.C146_date_counterexample` | propext, Classical.choice, Quot.sound |
| C146 | `Grate.Props.C146_sheet_counterexample` | propext, Classical.choice, Quot.sound |
| C146 | `Grate.Props.C146_witness` | propext, Classical.choice, Quot.sound |
| C147 | `Grate.Props.C147_opener_partial` | propext, Classical.choice, Quot.sound |
| C147 | `Grate.Props.C147_open_partial` | propext, Classical.choice, Quot.sound |
| C147 | `Grate.Props.C147_file_partial` | propext, Classical.choice, Quot.sound |
| C147 | `Grate.Props.C147_cell_counterexample` | propext, Classical.choice, Quot.sound |
| C147 | `Grate.Props.C147_string_counterexample` | propext |
| C147 | `Grate.Props.C147_witness` | propext, Classical.choice, Quot.sound |
| C148 | `Grate.Props.C148_opener` | propext, Classical.choice, Quot.sound |
| C148 | `Grate.Props.C148_open` | propext, Classical.choice, Quot.sound |
| C148 | `Grate.Props.C148_file` | propext, Classical.choice, Quot.sound |
| C148 | `Grate.Props.C148_witness` | propext, Classical.choice, Quot.sound |
| C149 | `Grate.Props.C149_sheet` | propext, Classical.choice, Quot.sound |
| C149 | `Grate.Props.C149_file_partial` | propext, Classical.choice, Quot.sound |
| C149 | `Grate.Props.C149_witness` | propext, Classical.choice, Quot.sound |
| C149 | `Grate.Props.C149_between_counterexample` | propext, Classical.choice, Quot.sound |
| C150 | `Grate.Props.C150_xlsx_partial` | propext, Classical.choice, Quot.sound |
| C150 | `Grate.Props.C150_xls_partial` | propext, Classical.choice, Quot.sound |
| C150 | `Grate.Props.C150_xlsx_witness` | propext, Classical.choice, Quot.sound |
| C150 | `Grate.Props.C150_xls_witness` | propext, Classical.choice, Quot.sound |
| C151 | `Grate.Props.C151_opener_partial` | propext, Classical.choice, Quot.sound |
| C151 | `Grate.Props.C151_open_partial` | propext, Classical.choice, Quot.sound |
| C151 | `Grate.Props.C151_counterexample` | propext, Classical.choice, Quot.sound |
| C151 | `Grate.Props.C151_witness` | propext, Classical.choice, Quot.sound |
| C152 | `Grate.Props.C152_widths` | propext, Classical.choice, Quot.sound |
| C152 | `Grate.Props.C152_order` | propext, Classical.choice, Quot.sound |
| C152 | `Grate.Props.C152_open` | propext, Classical.choice, Quot.sound |
| C152 | `Grate.Props.C152_witness` | propext, Classical.choice, Quot.sound |
