{
 "claims": [
  {
   "property": "C01",
   "status": "proved",
   "theorems": [
    "Grate.Props.C01_open_dispatch",
    "Grate.Props.C01_open_order_independent",
    "Grate.Props.C01_witness"
   ],
   "note": "Any registration history, any opener outcomes."
  },
  {
   "property": "C02",
   "status": "proved",
   "theorems": [
    "Grate.Props.C02_open_trace",
    "Grate.Props.C02_unknown_iff"
   ],
   "note": ""
  },
  {
   "property": "C03",
   "status": "proved",
   "theorems": [
    "Grate.Props.C03_wrap_recognised",
    "Grate.Props.C03_wrap_two",
    "Grate.Props.C03_wrap_one",
    "Grate.Props.C03_wrap_message",
    "Grate.Props.C03_only_second",
    "Grate.Props.C03_first_position_not_recognised"
   ],
   "note": "Only the second wrapped error is visible to errors.Is; the first position is not."
  },
  {
   "property": "C04",
   "status": "proved",
   "theorems": [
    "Grate.Props.C04_tsv_roundtrip"
   ],
   "note": ""
  },
  {
   "property": "C05",
   "status": "proved",
   "theorems": [
    "Grate.Props.C05_tsv_lossless",
    "Grate.Props.C05_rows_unique"
   ],
   "note": ""
  },
  {
   "property": "C06",
   "status": "proved",
   "theorems": [
    "Grate.Props.C06_order_independent",
    "Grate.Props.C06_rule",
    "Grate.Props.C06_witness"
   ],
   "note": "The documented rule is proved for files with fewer than 2^50 rows (float64 comparison against 0.8)."
  },
  {
   "property": "C07",
   "status": "partial",
   "theorems": [
    "Grate.Props.C07_csv_never_opens",
    "Grate.Props.C07_counterexample",
    "Grate.Props.C07_csv_declines_partial"
   ],
   "note": "False of the code: OpenCSV never succeeds. Negation proved with a witness."
  },
  {
   "property": "C08",
   "status": "proved",
   "theorems": [
    "Grate.Props.C08_cursor",
    "Grate.Props.C08_drain",
    "Grate.Props.C08_isEmpty"
   ],
   "note": ""
  },
  {
   "property": "C09",
   "status": "proved",
   "theorems": [
    "Grate.Props.C09_scan_position",
    "Grate.Props.C09_scan_width",
    "Grate.Props.C09_scan_fill"
   ],
   "note": ""
  },
  {
   "property": "C10",
   "status": "proved",
   "theorems": [
    "Grate.Props.C10_last_write_wins"
   ],
   "note": "Any completed history, also with shrinking resizes."
  },
  {
   "property": "C11",
   "status": "proved",
   "theorems": [
    "Grate.Props.C11_put_no_panic",
    "Grate.Props.C11_witness",
    "Grate.Props.C11_negative_resize_counterexample"
   ],
   "note": "Non-negative sizes are needed (counterexample)."
  },
  {
   "property": "C12",
   "status": "proved",
   "theorems": [
    "Grate.Props.C12_rectangular",
    "Grate.Props.C12_witness",
    "Grate.Props.C12_shrink_counterexample"
   ],
   "note": ""
  },
  {
   "property": "C13",
   "status": "proved",
   "theorems": [
    "Grate.Props.C13_cursor",
    "Grate.Props.C13_drain",
    "Grate.Props.C13_drain_raw",
    "Grate.Props.C13_written_row_visited",
    "Grate.Props.C13_extra_row"
   ],
   "note": "Iteration also yields one extra blank row."
  },
  {
   "property": "C14",
   "status": "partial",
   "theorems": [
    "Grate.Props.C14_types_truthful_partial",
    "Grate.Props.C14_numeric_dates_partial",
    "Grate.Props.C14_date_counterexample"
   ],
   "note": "False for text and booleans stored with date formats; everything else proved."
  },
  {
   "property": "C15",
   "status": "partial",
   "theorems": [
    "Grate.Props.C15_scan_partial",
    "Grate.Props.C15_never_invalid_scan_type",
    "Grate.Props.C15_counterexample",
    "Grate.Props.C15_witness"
   ],
   "note": "Positions and types proved; the ErrInvalidScanType part is false of the code."
  },
  {
   "property": "C16",
   "status": "proved",
   "theorems": [
    "Grate.Props.C16_marker",
    "Grate.Props.C16_text",
    "Grate.Props.C16_marker_sheet"
   ],
   "note": ""
  },
  {
   "property": "C17",
   "status": "partial",
   "theorems": [
    "Grate.Props.C17_isEmpty_partial",
    "Grate.Props.C17_fresh",
    "Grate.Props.C17_counterexample"
   ],
   "note": "False for sheets whose only value is A1."
  },
  {
   "property": "C18",
   "status": "partial",
   "theorems": [
    "Grate.Props.C18_ignored_partial",
    "Grate.Props.C18_written",
    "Grate.Props.C18_counterexample"
   ],
   "note": "False at row = NumRows / column = NumCols and on never-written cells."
  },
  {
   "property": "C19",
   "status": "partial",
   "theorems": [
    "Grate.Props.C19_fits",
    "Grate.Props.C19_never_wrong_partial",
    "Grate.Props.C19_uint_counterexample",
    "Grate.Props.C19_witness"
   ],
   "note": "False for uint above the int64 range; all other integer types proved."
  },
  {
   "property": "C20",
   "status": "proved",
   "theorems": [
    "Grate.Props.C20_type",
    "Grate.Props.C20_bool",
    "Grate.Props.C20_int",
    "Grate.Props.C20_float",
    "Grate.Props.C20_str"
   ],
   "note": "Float parsing and printing are external parameters."
  },
  {
   "property": "C21",
   "status": "partial",
   "theorems": [
    "Grate.Props.C21_str",
    "Grate.Props.C21_bool",
    "Grate.Props.C21_int_less",
    "Grate.Props.C21_float_less",
    "Grate.Props.C21_float_equal",
    "Grate.Props.C21_int_equal_partial",
    "Grate.Props.C21_int_equal_counterexample"
   ],
   "note": "Order proved for every type, Equal for text, booleans and finite floats; Equal on integers is proved up to 2^53 and false beyond (counterexample)."
  },
  {
   "property": "C22",
   "status": "partial",
   "theorems": [
    "Grate.Props.C22_nonnumeric_partial",
    "Grate.Props.C22_numeric_partial",
    "Grate.Props.C22_witness",
    "Grate.Props.C22_symmetry_counterexample",
    "Grate.Props.C22_time_counterexample",
    "Grate.Props.C22_nan_counterexample"
   ],
   "note": "Proved among non-numeric cells and among numeric cells (except NaN reflexivity); false for a number against text and for times."
  },
  {
   "property": "C23",
   "status": "proved",
   "theorems": [
    "Grate.Props.C23_builtin_unalterable"
   ],
   "note": "For any compilation of custom codes."
  },
  {
   "property": "C24",
   "status": "proved",
   "theorems": [
    "Grate.Props.C24_add_other",
    "Grate.Props.C24_first_wins",
    "Grate.Props.C24_history",
    "Grate.Props.C24_general_replaces",
    "Grate.Props.C24_witness"
   ],
   "note": ""
  },
  {
   "property": "C25",
   "status": "partial",
   "theorems": [
    "Grate.Props.C25_get_partial",
    "Grate.Props.C25_apply_counterexample",
    "Grate.Props.C25_witness"
   ],
   "note": "False for Apply, which panics."
  },
  {
   "property": "C26",
   "status": "proved",
   "theorems": [
    "Grate.Props.C26_commas",
    "Grate.Props.C26_delete_commas",
    "Grate.Props.C26_groups",
    "Grate.Props.C26_witness"
   ],
   "note": ""
  },
  {
   "property": "C27",
   "status": "proved",
   "theorems": [
    "Grate.Props.C27_neg_parens"
   ],
   "note": ""
  },
  {
   "property": "C28",
   "status": "proved",
   "theorems": [
    "Grate.Props.C28_sections",
    "Grate.Props.C28_witness"
   ],
   "note": ""
  },
  {
   "property": "C29",
   "status": "proved",
   "theorems": [
    "Grate.Props.C29_tables_agree"
   ],
   "note": ""
  },
  {
   "property": "C30",
   "status": "partial",
   "theorems": [
    "Grate.Props.C30_float_partial",
    "Grate.Props.C30_counterexample",
    "Grate.Props.C30_truncation_counterexample",
    "Grate.Props.C30_int_actual"
   ],
   "note": "False of the code for integers; negation proved. Floats with an integral value proved."
  },
  {
   "property": "C31",
   "status": "proved",
   "theorems": [
    "Grate.Props.C31_calendar",
    "Grate.Props.C31_epoch",
    "Grate.Props.C31_day",
    "Grate.Props.C31_civil",
    "Grate.Props.C31_consecutive",
    "Grate.Props.C31_witness"
   ],
   "note": "For integral serials from -2483588 to 2^46; beyond these the 64-bit arithmetic of the code or of time.Date overflows."
  },
  {
   "property": "C32",
   "status": "partial",
   "theorems": [
    "Grate.Props.C32_digits_partial",
    "Grate.Props.C32_nearest_partial",
    "Grate.Props.C32_witness",
    "Grate.Props.C32_counterexample",
    "Grate.Props.C32_whole_partial",
    "Grate.Props.C32_whole_witness",
    "Grate.Props.C32_render_partial",
    "Grate.Props.C32_render_witness",
    "Grate.Props.C32_ends",
    "Grate.Props.C32_ends_witness"
   ],
   "note": "Proved on float64 arithmetic, for every v in (0,1) with v >= 1e-9 (or at least 10 digits for the denominator) and 1 to 15 digits: the loop ends, the digit limits hold, and the numerator is nearest up to 2^-52. Whole part and fraction, and the text of the fraction formats, for all finite numbers below 2^63; splitting a number into whole part and fraction ends on every float64, NaN and infinities included. False for 0 < v < 1e-9 with fewer digits (C32_counterexample: 1/1000000000). Missing: more than 15 digits."
  },
  {
   "property": "C33",
   "status": "proved",
   "theorems": [
    "Grate.Props.C33_read",
    "Grate.Props.C33_readAll",
    "Grate.Props.C33_interior_empty"
   ],
   "note": "Slices built by the package are non-empty up to unused slots at the end; an empty slice in the middle would end the stream early (C33_interior_empty)."
  },
  {
   "property": "C34",
   "status": "partial",
   "theorems": [
    "Grate.Props.C34_seek_partial",
    "Grate.Props.C34_terminates",
    "Grate.Props.C34_invalid",
    "Grate.Props.C34_history",
    "Grate.Props.C34_counterexample_rewind",
    "Grate.Props.C34_counterexample_end"
   ],
   "note": "Any history of reads and seeks that does not hit one of the two panics behaves like a file; seeking back to 0 relatively and seeking to the end panic (counterexamples)."
  },
  {
   "property": "C35",
   "status": "proved",
   "theorems": [
    "Grate.Props.C35_stream",
    "Grate.Props.C35_file",
    "Grate.Props.C35_witness"
   ],
   "note": "For any document in memory; C35_file goes from the bytes of the file (entry among the first four directory slots, see C39)."
  },
  {
   "property": "C36",
   "status": "partial",
   "theorems": [
    "Grate.Props.C36_mini",
    "Grate.Props.C36_file_partial",
    "Grate.Props.C36_witness",
    "Grate.Props.C36_counterexample"
   ],
   "note": "Extraction proved for any mini FAT in memory; but only the first sector of the mini FAT is ever loaded, so mini sectors from 128 on panic (counterexample)."
  },
  {
   "property": "C37",
   "status": "partial",
   "theorems": [
    "Grate.Props.C37_terminates_partial",
    "Grate.Props.C37_witness",
    "Grate.Props.C37_counterexample",
    "Grate.Props.C37_panic_counterexample",
    "Grate.Props.C37_whole_partial",
    "Grate.Props.C37_streams_partial",
    "Grate.Props.C37_stream_counterexample"
   ],
   "note": "Terminates whenever the DIFAT chain ends (or there is none). No crash either for files of whole sectors with a DIFAT chain inside the file, whatever else they say, nor in opening their large streams if the numbers in the FAT can be followed. False for cyclic DIFAT chains (hangs), truncated FAT sectors and chains that lead to the end of the file (crashes)."
  },
  {
   "property": "C38",
   "status": "proved",
   "theorems": [
    "Grate.Props.C38_declined",
    "Grate.Props.C38_witness"
   ],
   "note": ""
  },
  {
   "property": "C39",
   "status": "partial",
   "theorems": [
    "Grate.Props.C39_list_partial",
    "Grate.Props.C39_actual",
    "Grate.Props.C39_counterexample",
    "Grate.Props.C39_witness"
   ],
   "note": "True for up to four entries without gaps; false beyond (only the first directory sector is read)."
  },
  {
   "property": "C40",
   "status": "proved",
   "theorems": [
    "Grate.Props.C40_chunks",
    "Grate.Props.C40_same",
    "Grate.Props.C40_reset",
    "Grate.Props.C40_witness",
    "Grate.Props.go_digest"
   ],
   "note": "For any digest of 16 bytes and any key stream; go_digest: so for the MD5 and RC4 of the Go library (Model/GoCrypto)."
  },
  {
   "property": "C41",
   "status": "partial",
   "theorems": [
    "Grate.Props.C41_restores_partial",
    "Grate.Props.C41_actual",
    "Grate.Props.C41_witness",
    "Grate.Props.C41_counterexample",
    "Grate.Props.C41_go_counterexample"
   ],
   "note": "Exact for streams whose last record has data; a last record without data (the EOF record) is dropped by the pass, everything before it restored; also with the MD5 and RC4 of the Go library (C41_go_counterexample)."
  },
  {
   "property": "C42",
   "status": "proved",
   "theorems": [
    "Grate.Props.C42_verify",
    "Grate.Props.C42_witness",
    "Grate.Props.C42_go_witness"
   ],
   "note": "For any digest of 16 bytes and any key stream; C42_go_witness: a header made with the MD5 and RC4 of the Go library."
  },
  {
   "property": "C43",
   "status": "partial",
   "theorems": [
    "Grate.Props.C43_record",
    "Grate.Props.C43_records",
    "Grate.Props.C43_truncated_partial",
    "Grate.Props.C43_witness",
    "Grate.Props.C43_counterexample"
   ],
   "note": "every record list is read back in order; a last record cut inside its data is reported; false for a cut inside the 4-byte header, where the record is silently dropped (counterexample)"
  },
  {
   "property": "C44",
   "status": "proved",
   "theorems": [
    "Grate.Props.C44_groups",
    "Grate.Props.load_content",
    "Grate.Props.C44_witness"
   ],
   "note": "for all well-formed substream sequences, nested blocks included; load_content: loading succeeds with the content said by the records"
  },
  {
   "property": "C45",
   "status": "proved",
   "theorems": [
    "Grate.Props.C45_sheets",
    "Grate.Props.C45_complete",
    "Grate.Props.C45_witness"
   ],
   "note": "from the bytes of the stream; with duplicate names Get gives the first"
  },
  {
   "property": "C46",
   "status": "partial",
   "theorems": [
    "Grate.Props.C46_table_partial",
    "Grate.Props.C46_ends",
    "Grate.Props.C46_witness",
    "Grate.Props.C46_counterexample"
   ],
   "note": "for every list of texts and every legal layout over continuation records the parsed table is the list of texts; missing exactly the layouts leaving one byte of formatting/phonetic data in the record of the wide characters before it, which the code refuses (counterexample proved)"
  },
  {
   "property": "C47",
   "status": "proved",
   "theorems": [
    "Grate.Props.C47_short",
    "Grate.Props.C47_long",
    "Grate.Props.C47_witness"
   ],
   "note": "all texts up to 255/65535 units, 8- and 16-bit, any bytes following, consumed length included"
  },
  {
   "property": "C48",
   "status": "partial",
   "theorems": [
    "Grate.Props.C48_rk_partial",
    "Grate.Props.C48_integer_100",
    "Grate.Props.C48_counterexample",
    "Grate.Props.C48_witness"
   ],
   "note": "three of the four kinds for all bit patterns; integers divided by 100 always decode to 0 (proved)"
  },
  {
   "property": "C49",
   "status": "partial",
   "theorems": [
    "Grate.Props.C49_sheet_partial",
    "Grate.Props.C49_file_partial",
    "Grate.Props.C49_encrypted_partial",
    "Grate.Props.C49_witness",
    "Grate.Props.C49_wide_counterexample"
   ],
   "note": "from the bytes of the stream to every cell of the sheet, for all record kinds; missing: RK integers divided by 100 (C48), formula texts that are 8-bit non-ASCII or 16-bit and longer than one record (panic proved), nested embedded blocks (C51)"
  },
  {
   "property": "C50",
   "status": "partial",
   "theorems": [
    "Grate.Props.C50_merge_partial",
    "Grate.Props.C50_witness",
    "Grate.Props.C50_counterexample"
   ],
   "note": "for every sheet and region; false for a region to column 0xFF of a sheet that declares no columns (counterexample)"
  },
  {
   "property": "C51",
   "status": "partial",
   "theorems": [
    "Grate.Props.C51_skip_partial",
    "Grate.Props.C51_witness",
    "Grate.Props.C51_counterexample"
   ],
   "note": "removing a block without nested blocks changes nothing, whatever the records around and in it; false for nested blocks (counterexample)"
  },
  {
   "property": "C52",
   "status": "partial",
   "theorems": [
    "Grate.Props.C52_decode_partial",
    "Grate.Props.C52_trims_unique",
    "Grate.Props.C52_counterexample"
   ],
   "note": "all well-formed hyperlinks; a location replaces the link to the target when both are stored (counterexample)"
  },
  {
   "property": "C53",
   "status": "partial",
   "theorems": [
    "Grate.Props.C53_stream_partial",
    "Grate.Props.C53_stream_witness",
    "Grate.Props.C53_split_partial",
    "Grate.Props.C53_witness",
    "Grate.Props.C53_counterexample",
    "Grate.Props.C53_string_counterexample",
    "Grate.Props.C53_short_counterexample"
   ],
   "note": "C53_stream_partial: streams whose records have the bytes they announce never panic, in loading and in every Get, whatever the bytes say and wherever the stream ends; false for records that are too short, for the string number after the last and for String records without a formula (counterexamples; also those of C36, C37, C49)"
  },
  {
   "property": "C54",
   "status": "partial",
   "theorems": [
    "Grate.Props.C54_1900_partial",
    "Grate.Props.C54_counterexample"
   ],
   "note": "false for 1904 workbooks: the flag is never used (counterexample); the 1900 epoch is used in every loaded workbook"
  },
  {
   "property": "C55",
   "status": "proved",
   "theorems": [
    "Grate.Props.C55_decode",
    "Grate.Props.C55_reference",
    "Grate.Props.C55_distinct",
    "Grate.Props.C55_all",
    "Grate.Props.C55_witness",
    "Grate.Props.C55_r1c1"
   ],
   "note": "all columns and rows below 2^63-1; C55_r1c1 records what happens to references of the other style"
  },
  {
   "property": "C56",
   "status": "proved",
   "theorems": [
    "Grate.Props.C56_strings",
    "Grate.Props.C56_cell",
    "Grate.Props.C56_witness"
   ],
   "note": "On tokens; C95 has the tokens of a text. What belongs to a string is C97."
  },
  {
   "property": "C57",
   "status": "partial",
   "theorems": [
    "Grate.Props.C57_styles_partial",
    "Grate.Props.C57_witness",
    "Grate.Props.C57_counterexample"
   ],
   "note": "for all style parts with ids up to 32767 where number formats are disabled by \"0\"; false for \"false\" and for larger ids (counterexample)"
  },
  {
   "property": "C58",
   "status": "partial",
   "theorems": [
    "Grate.Props.C58_cells_partial",
    "Grate.Props.C58_sheet_partial",
    "Grate.Props.C58_witness",
    "Grate.Props.C58_counterexample",
    "Grate.Props.C58_text_counterexample"
   ],
   "note": "for every list of cells; missing: white space between the elements of a cell, inline strings with several runs, hyperlinks over a value, and comments in a value (counterexamples)"
  },
  {
   "property": "C59",
   "status": "proved",
   "theorems": [
    "Grate.Props.C59_merge",
    "Grate.Props.C59_witness"
   ],
   "note": "the same predicate (Merged) as for xls (C50)"
  },
  {
   "property": "C60",
   "status": "proved",
   "theorems": [
    "Grate.Props.C60_again",
    "Grate.Props.C60_first",
    "Grate.Props.C60_unknown",
    "Grate.Props.C60_listed",
    "Grate.Props.C60_closed",
    "Grate.Props.C60_witness"
   ],
   "note": "for all histories of Get and cursor moves"
  },
  {
   "property": "C61",
   "status": "partial",
   "theorems": [
    "Grate.Props.C61_open_partial",
    "Grate.Props.C61_sheet_partial",
    "Grate.Props.C61_witness",
    "Grate.Props.C61_counterexample"
   ],
   "note": "from the archive to the cells of the sheet; an absolute target of the workbook part itself is not found (counterexample)"
  },
  {
   "property": "C62",
   "status": "partial",
   "theorems": [
    "Grate.Props.C62_parts_partial",
    "Grate.Props.C62_styles_partial",
    "Grate.Props.C62_open_partial",
    "Grate.Props.C62_reference",
    "Grate.Props.C62_sheet_partial",
    "Grate.Props.C62_get_partial",
    "Grate.Props.C58_sheet_partial",
    "Grate.Props.C62_witness",
    "Grate.Props.C62_sheet_witness",
    "Grate.Props.C62_counterexample",
    "Grate.Props.C62_text_counterexample",
    "Grate.Props.C62_dimension_counterexample"
   ],
   "note": "relationship, workbook and string parts never crash, whatever their tokens; opening does not unless a style part has one of three causes; worksheets, and every Get of every history, do not unless a part has one of the causes excluded by SafeWs, whatever else is in it; references that crash are characterised exactly; ten kinds of crashes proved, one from a well-formed text"
  },
  {
   "property": "C63",
   "status": "proved",
   "theorems": [
    "Grate.Props.C63_log",
    "Grate.Props.C63_running",
    "Grate.Props.C63_files",
    "Grate.Props.C63_witness"
   ],
   "note": "Transition system of main, any number of workers, the cleanup goroutine, both channels, wait group, mutex and output pool; invariants over all reachable states. processFile is a job with arbitrary outputs and lines; C63_files plugs in the model of processFile. Panics in processFile and failing writes to the log are not modelled."
  },
  {
   "property": "C64",
   "status": "partial",
   "theorems": [
    "Grate.Props.C64_flushed",
    "Grate.Props.C64_safe",
    "Grate.Props.C64_progress_partial",
    "Grate.Props.C64_terminates",
    "Grate.Props.C64_exits_partial",
    "Grate.Props.C64_counterexample"
   ],
   "note": "False on a machine with one CPU (no workers: stuck on the first file, C64_counterexample). With two or more CPUs: no reachable state is stuck, every execution is finite, every one that exits has flushed and closed every output exactly once."
  },
  {
   "property": "C65",
   "status": "proved",
   "theorems": [
    "Grate.Props.C65_content",
    "Grate.Props.C65_unique",
    "Grate.Props.C65_lines",
    "Grate.Props.C65_reopened",
    "Grate.Props.C65_file",
    "Grate.Props.C65_witness"
   ],
   "note": "Reopening goes through the TSV reader, which may decline the file (C06) or refuse lines of 64 KiB (C05)."
  },
  {
   "property": "C66",
   "status": "proved",
   "theorems": [
    "Grate.Props.C66_decode",
    "Grate.Props.C66_split",
    "Grate.Props.C66_unpaired",
    "Grate.Props.C66_plain",
    "Grate.Props.C66_encode",
    "Grate.Props.C66_text",
    "Grate.Props.C66_witness"
   ],
   "note": "decoding inverts UTF-16 encoding; unpaired surrogates become U+FFFD and leave their surroundings alone; UTF-8 output agrees with Lean's encoder"
  },
  {
   "property": "C67",
   "status": "proved",
   "theorems": [
    "Grate.Props.C67_encrypted",
    "Grate.Props.C67_refused",
    "Grate.Props.C67_witness"
   ],
   "note": "up to the final empty EOF record, which is dropped (C41); MD5 and RC4 are parameters (digests of 16 bytes)"
  },
  {
   "property": "C68",
   "status": "partial",
   "theorems": [
    "Grate.Props.C68_paths_partial",
    "Grate.Props.C68_counterexample"
   ],
   "note": "False: sheet names differing only in non-alphanumeric characters collide, and so do files with equal base names in different directories or with different extensions. Proved for alphanumeric sheet names of one file."
  },
  {
   "property": "C69",
   "status": "partial",
   "theorems": [
    "Grate.Props.C65_file",
    "Grate.Props.C69_columns_partial",
    "Grate.Props.C69_counterexample"
   ],
   "note": "Rows: proved (C65_file, ReportOf). Columns: the number reported is one less than the number of columns in use (C69_counterexample); C69_columns_partial says exactly what is reported."
  },
  {
   "property": "C70",
   "status": "partial",
   "theorems": [
    "Grate.Props.C70_decimals_partial",
    "Grate.Props.C70_integers_partial",
    "Grate.Props.C70_floats_partial",
    "Grate.Props.C70_witness",
    "Grate.Props.C70_witness_value",
    "Grate.Props.C70_zeros_counterexample",
    "Grate.Props.C70_text_counterexample",
    "Grate.Props.C70_rounding_counterexample"
   ],
   "note": "Proved for every code [text][#,##]0[.00][%][text] with text free of the characters the compiler misreads inside quotes; the digits of a float are those fmt.Sprintf prints (a parameter). False for leading zeros (000), quoted text with e, E, a point or placeholders, and rounding without decimals."
  },
  {
   "property": "C71",
   "status": "partial",
   "theorems": [
    "Grate.Props.C71_dates_partial",
    "Grate.Props.C71_witness",
    "Grate.Props.C71_minutes_counterexample",
    "Grate.Props.C71_weekday_counterexample",
    "Grate.Props.C71_ampm_counterexample",
    "Grate.Props.C71_elapsed_counterexample",
    "Grate.Props.C71_quoted_counterexample"
   ],
   "note": "Proved for every sequence of different fields with separators, bare or quoted, where minutes stand between hours and seconds. False for h:mm and mm:ss (the month is shown), dddd, AM/PM, elapsed hours and field letters in quotes."
  },
  {
   "property": "C72",
   "status": "partial",
   "theorems": [
    "Grate.Props.C72_marks",
    "Grate.Props.C72_sections",
    "Grate.Props.C72_witness",
    "Grate.Props.C72_quoted_counterexample"
   ],
   "note": "Proved for all sections without semicolons and brackets and all marks; false for a semicolon in quotes."
  },
  {
   "property": "C73",
   "status": "partial",
   "theorems": [
    "Grate.Props.C73_builtin_dates_partial",
    "Grate.Props.C73_witness",
    "Grate.Props.C73_counterexample"
   ],
   "note": "Whole table; false for formats 36 and 50, which show the day for the month."
  },
  {
   "property": "C74",
   "status": "partial",
   "theorems": [
    "Grate.Props.C74_text_partial",
    "Grate.Props.C74_witness",
    "Grate.Props.C74_integer_counterexample",
    "Grate.Props.C74_float_counterexample",
    "Grate.Props.C74_total_counterexample",
    "Grate.Props.C74_date_counterexample",
    "Grate.Props.C74_empty_counterexample"
   ],
   "note": "Proved for the General and text formats. False for the others: under number formats the text becomes 0, under date formats an error message; the empty text becomes <nil> under the text format."
  },
  {
   "property": "C75",
   "status": "partial",
   "theorems": [
    "Grate.Props.C75_plain_partial",
    "Grate.Props.C75_accounting_partial",
    "Grate.Props.C75_short_partial",
    "Grate.Props.C75_witness",
    "Grate.Props.C75_counterexample"
   ],
   "note": "Proved for plain number, percent, scientific, General and text formats, for accounting formats if the text is no number, and for short texts under formats with separators. False: To,tal under #,##0, an error message under fraction and date formats, a crash for the empty text."
  },
  {
   "property": "C76",
   "status": "partial",
   "theorems": [
    "Grate.Props.C76_apply",
    "Grate.Props.C76_strings",
    "Grate.Props.C76_workbook",
    "Grate.Props.C76_witness",
    "Grate.Props.C76_strings_witness",
    "Grate.Props.C76_workbook_witness",
    "Grate.Props.C76_counterexample"
   ],
   "note": "Proved for every value but the empty text, every sheet written by Put under known formats, and every workbook sheet whose formula results are not the empty text, given that Go's printing functions never print nothing. False for the empty text under formats with separators or parentheses."
  },
  {
   "property": "C77",
   "status": "partial",
   "theorems": [
    "Grate.Props.C77_xls_partial",
    "Grate.Props.C77_witness",
    "Grate.Props.C77_counterexample",
    "Grate.Props.C77_encrypted_partial",
    "Grate.Props.C77_encrypted_witness",
    "Grate.Props.C77_go_partial",
    "Grate.Props.C77_go_witness"
   ],
   "note": "From the bytes of the file to the cells, for compound documents with the Workbook stream among the first four directory entries and workbooks as in C49, plain or encrypted with the default password (for any MD5 and RC4). False for a Workbook entry further back: the file opens as a text (C77_counterexample)."
  },
  {
   "property": "C78",
   "status": "partial",
   "theorems": [
    "Grate.Props.C78_xlsx_partial",
    "Grate.Props.C95_file",
    "Grate.Props.C61_witness",
    "Grate.Props.C82_xlsx_witness",
    "Grate.Props.C95_witness",
    "Grate.Props.C140_file_partial"
   ],
   "note": "From the bytes of the parts (C95_file) to the cells, and from the bytes of the file with archive/zip as modelled (C140_file_partial). Limits of C58 and C61."
  },
  {
   "property": "C79",
   "status": "proved",
   "theorems": [
    "Grate.Props.C79_text",
    "Grate.Props.C79_witness",
    "Grate.Props.C79_plain",
    "Grate.Props.C79_plain_witness"
   ],
   "note": "Through the table of registered formats; for files that are no compound documents and that the zip reader refuses (C79_text), which every text without control characters is (C79_plain, with archive/zip as modelled)."
  },
  {
   "property": "C80",
   "status": "partial",
   "theorems": [
    "Grate.Props.C80_column_partial",
    "Grate.Props.C80_counterexample",
    "Grate.Props.C80_witness",
    "Grate.Props.C80_plain_counterexample"
   ],
   "note": "False for every table of plain fields with a row of two or more fields: the text format accepts the file first and gives one field per line (C80_plain_counterexample: from the bytes alone, with archive/zip as modelled). True for one column."
  },
  {
   "property": "C81",
   "status": "partial",
   "theorems": [
    "Grate.Props.C81_unknown_partial",
    "Grate.Props.C81_counterexample",
    "Grate.Props.C81_compound_counterexample",
    "Grate.Props.C81_witness"
   ],
   "note": "Exact condition for ErrUnknownFormat for files that are no compound documents and no zip archives; false for every such file of at most 25 lines, for example a PNG image, and for a compound document without a workbook: they open as text."
  },
  {
   "property": "C82",
   "status": "partial",
   "theorems": [
    "Grate.Props.C82_files",
    "Grate.Props.C82_error",
    "Grate.Props.C82_text",
    "Grate.Props.C82_xls_partial",
    "Grate.Props.C82_witness",
    "Grate.Props.C82_xlsx_partial",
    "Grate.Props.C82_xlsx_witness",
    "Grate.Props.C82_counterexample",
    "Grate.Props.C82_dialog_witness",
    "Grate.Props.C82_verbose",
    "Grate.Props.C82_sheets",
    "Grate.Props.C82_sheets_witness",
    "Grate.Props.C82_encrypted_partial",
    "Grate.Props.C82_encrypted_witness"
   ],
   "note": "Order of files, errors and texts are proved in full; xls (plain and encrypted) and xlsx files within the limits of C76, C77 and C78. False for xls files with a dialog sheet: the command crashes and the files after it are not printed."
  },
  {
   "property": "C83",
   "status": "proved",
   "theorems": [
    "Grate.Props.C83_missing",
    "Grate.Props.C83_witness"
   ],
   "note": "For every error that is not itself one of the not-in-format errors."
  },
  {
   "property": "C84",
   "status": "partial",
   "theorems": [
    "Grate.Props.C84_xls_partial",
    "Grate.Props.C84_xlsx_partial",
    "Grate.Props.C84_counterexample",
    "Grate.Props.C84_witness"
   ],
   "note": "The columns are exact and the rows are exact but for one blank row more at the end, always (C84_counterexample)."
  },
  {
   "property": "C85",
   "status": "partial",
   "theorems": [
    "Grate.Props.C85_xls_partial",
    "Grate.Props.C85_text",
    "Grate.Props.C85_xlsx",
    "Grate.Props.C85_counterexample",
    "Grate.Props.C85_witness"
   ],
   "note": "True for xls. False for xlsx and texts: the second Get gives the collection as it was left, so one that was read to its end has no rows (C85_counterexample); what it gives instead is proved in C85_xlsx and C85_text."
  },
  {
   "property": "C86",
   "status": "partial",
   "theorems": [
    "Grate.Props.C86_builtin_partial",
    "Grate.Props.C86_custom_partial",
    "Grate.Props.C86_days_partial",
    "Grate.Props.C86_witness",
    "Grate.Props.C86_hour_counterexample",
    "Grate.Props.C86_quotes_counterexample",
    "Grate.Props.C86_elapsed_counterexample",
    "Grate.Props.C86_tenths_counterexample",
    "Grate.Props.C86_ampm_counterexample",
    "Grate.Props.C86_letter_counterexample"
   ],
   "note": "time.Format is modelled. Proved for seventeen built-in formats and all custom formats readable as in C71 with separators free of digits and of J, M, P, p, Z, for every moment up to the year 9999 (hours of one letter from ten o'clock). False: h before ten o'clock has a zero, quotes are shown, [h] is a twelve-hour clock, .0 drops zeros, AM/PM is copied, mmmmm shows three letters."
  },
  {
   "property": "C87",
   "status": "partial",
   "theorems": [
    "Grate.Props.C87_near_partial",
    "Grate.Props.C87_second_partial",
    "Grate.Props.C87_exact_partial",
    "Grate.Props.C87_witness",
    "Grate.Props.C87_counterexample"
   ],
   "note": "False: ten o'clock is shown as 09:59, because the fraction of the day is cut off and not rounded. Proved: the moment is right to two nanoseconds (50 microseconds before serial 61), the second shown is the right one or the one before, and times that floats hold exactly are shown exactly."
  },
  {
   "property": "C88",
   "status": "partial",
   "theorems": [
    "Grate.Props.C88_fixed_partial",
    "Grate.Props.C88_grouped_partial",
    "Grate.Props.C88_parens_partial",
    "Grate.Props.C88_custom_partial",
    "Grate.Props.C88_percent_partial",
    "Grate.Props.C88_custom_percent_partial",
    "Grate.Props.C88_determined",
    "Grate.Props.C88_infinite",
    "Grate.Props.C88_witness",
    "Grate.Props.C88_percent_counterexample",
    "Grate.Props.C88_whole_counterexample"
   ],
   "note": "fmt.Sprintf is modelled (GoPrints). Proved for all formats with decimals that are no percents, ties to even; for percents the number rounded is within 2^-j of a hundred times the value (double rounding: 0.00125 shows 0.12%, C88_percent_counterexample). Formats without decimals cut off (C88_whole_counterexample). Infinities get a comma (C88_infinite)."
  },
  {
   "property": "C89",
   "status": "partial",
   "theorems": [
    "Grate.Props.C89_cents_partial",
    "Grate.Props.C89_whole_partial",
    "Grate.Props.C89_negative_counterexample",
    "Grate.Props.C89_witness"
   ],
   "note": "Zero and positive amounts as claimed. Negative amounts have no parentheses under 41 and 43, and a minus sign inside the parentheses under 42 and 44."
  },
  {
   "property": "C90",
   "status": "partial",
   "theorems": [
    "Grate.Props.C90_science_partial",
    "Grate.Props.C90_custom_partial",
    "Grate.Props.C90_witness",
    "Grate.Props.C90_engineering_counterexample"
   ],
   "note": "Proved for 0.00E+00 and for all custom codes 0.0...0E+00. False for ##0.0E+0, whose powers are not multiples of three, and for codes with one exponent digit, which show two."
  },
  {
   "property": "C91",
   "status": "proved",
   "theorems": [
    "Grate.Props.C91_cell",
    "Grate.Props.C91_text",
    "Grate.Props.C91_scan",
    "Grate.Props.C91_coerce",
    "Grate.Props.C91_determined",
    "Grate.Props.C91_witness"
   ],
   "note": "strconv.ParseFloat is modelled on decimal numerals (GoParses), and its rounding is proved to give the nearest float64 for numerals of all lengths. For xlsx cells within the limits of C58 (no white space between the elements of a cell)."
  },
  {
   "property": "C92",
   "status": "proved",
   "theorems": [
    "Grate.Props.C92_exact",
    "Grate.Props.C92_zero",
    "Grate.Props.C92_int",
    "Grate.Props.C92_cell",
    "Grate.Props.C92_witness"
   ],
   "note": "strconv.FormatFloat with the shortest digits is modelled (GoShort): two decimals of at most fifteen digits are never read as the same float64, so the shortest digits found are those typed."
  },
  {
   "property": "C93",
   "status": "partial",
   "theorems": [
    "Grate.Props.C93_close_partial",
    "Grate.Props.C93_width_partial",
    "Grate.Props.C93_counterexample",
    "Grate.Props.C93_negative_counterexample",
    "Grate.Props.C93_witness"
   ],
   "note": "False: 1234567.8912 shows 1.23457e+06 (six digits) though 1234567.891 fits, and -1234567.8912 takes seventeen characters. Proved: what is shown is read as the same number or is within a 200000th part of it, and positive numbers with exponents of two digits take at most eleven characters."
  },
  {
   "property": "C94",
   "status": "partial",
   "theorems": [
    "Grate.Props.C94_roundtrip",
    "Grate.Props.C94_text_partial",
    "Grate.Props.C94_counterexample",
    "Grate.Props.C94_witness"
   ],
   "note": "The way to text and back is proved for all finite numbers other than zero. Under the Text format true from 0.0001 up to a million; 5551234 shows 5.551234e+06."
  },
  {
   "property": "C95",
   "status": "proved",
   "theorems": [
    "Grate.Props.C95_part",
    "Grate.Props.C95_same",
    "Grate.Props.C95_file",
    "Grate.Props.C95_witness",
    "Grate.Props.C95_text_witness"
   ],
   "note": "encoding/xml is modelled on bytes (Model/GoXml); the ways to write tokens are XmlText (XML 1.0 without document type declarations, which the packaging standard forbids, names in ASCII). What the tokens mean has the limits of C58 and C61. archive/zip is a list of named byte strings."
  },
  {
   "property": "C96",
   "status": "partial",
   "theorems": [
    "Grate.Props.C96_counterexample",
    "Grate.Props.C96_reported_partial",
    "Grate.Props.C96_witness"
   ],
   "note": "False for every part in UTF-16: the document is declined or the sheet has an error. Proved: the error is always reported, nothing is misread."
  },
  {
   "property": "C97",
   "status": "partial",
   "theorems": [
    "Grate.Props.C97_strings_partial",
    "Grate.Props.C97_witness",
    "Grate.Props.C97_counterexample"
   ],
   "note": "True without phonetic runs and white space between elements; otherwise their text is part of the string shown (C97_counterexample)."
  },
  {
   "property": "C98",
   "status": "partial",
   "theorems": [
    "Grate.Props.C98_plain_partial",
    "Grate.Props.C98_witness",
    "Grate.Props.C98_counterexample"
   ],
   "note": "True for strings without such escapes; _x000D_ is shown as it is written (C98_counterexample)."
  },
  {
   "property": "C99",
   "status": "partial",
   "theorems": [
    "Grate.Props.C99_1900_partial",
    "Grate.Props.C99_counterexample"
   ],
   "note": "The declaration is never looked at: every document is read with the 1900 date system. The counterexample is a complete document, which is also the witness for the partial theorem."
  },
  {
   "property": "C100",
   "status": "partial",
   "theorems": [
    "Grate.Props.C100_dropped",
    "Grate.Props.C100_counterexample",
    "Grate.Props.C100_witness",
    "Grate.Props.C58_cells_partial"
   ],
   "note": "False: cells without a reference are dropped without an error (C100_dropped, for every such cell). Cells with references are C58."
  },
  {
   "property": "C101",
   "status": "proved",
   "theorems": [
    "Grate.Props.C101_isolated",
    "Grate.Props.C101_workbook",
    "Grate.Props.C101_get",
    "Grate.Props.C101_exclusive",
    "Grate.Props.C101_progress",
    "Grate.Props.C101_witness"
   ],
   "note": "Model/RecPool: records as objects in memory, the shared pool, one goroutine per workbook; steps are the single accesses. A workbook is used by one goroutine at a time and not after Close."
  },
  {
   "property": "C102",
   "status": "partial",
   "theorems": [
    "Grate.Props.C102_exact",
    "Grate.Props.C102_close_partial",
    "Grate.Props.C102_counterexample",
    "Grate.Props.C102_witness"
   ],
   "note": "False of every xls workbook: after Close it still lists its sheets and Get of any of them crashes (index into the emptied list of substreams); C102_exact says that these are all the crashes."
  },
  {
   "property": "C103",
   "status": "partial",
   "theorems": [
    "Grate.Props.C103_exact",
    "Grate.Props.C103_partial",
    "Grate.Props.C103_counterexample"
   ],
   "note": "False of every file that can be read: the compound file reader never closes its file, and xlsx.Open does not when it declines; after Close one file is open for xls and xlsx, two for text files (C103_exact). True when the file cannot be opened and for the text openers alone."
  },
  {
   "property": "C104",
   "status": "partial",
   "theorems": [
    "Grate.Props.C104_partial",
    "Grate.Props.C104_counterexample",
    "Grate.Props.C104_witness"
   ],
   "note": "False of every row of every text file: Strings returns the row itself. True of sheets and of the other rows."
  },
  {
   "property": "C105",
   "status": "partial",
   "theorems": [
    "Grate.Props.C105_counterexample",
    "Grate.Props.C105_largest",
    "Grate.Props.C105_text_partial",
    "Grate.Props.C105_text_witness"
   ],
   "note": "False: the size that a sheet of an xls workbook declares is allocated, 281 trillion cells for 118 bytes. True of text files."
  },
  {
   "property": "C106",
   "status": "partial",
   "theorems": [
    "Grate.Props.C106_xls_partial",
    "Grate.Props.C106_xlsx_partial",
    "Grate.Props.C106_xlsx_witness",
    "Grate.Props.C106_text",
    "Grate.Props.C106_counterexample",
    "Grate.Props.C106_dialog_counterexample",
    "Grate.Props.C106_dialog_witness",
    "Grate.Props.C106_encrypted_partial"
   ],
   "note": "False of sheets whose only cell is A1: they count as empty and their text is lost. An xls file with a dialog sheet crashes the command. True otherwise, for text files, xlsx files and xls files (plain or encrypted) in the stream Workbook, if the outputs can be created."
  },
  {
   "property": "C107",
   "status": "partial",
   "theorems": [
    "Grate.Props.C107_xls",
    "Grate.Props.C107_xlsx",
    "Grate.Props.C107_counterexample",
    "Grate.Props.C106_xls_partial",
    "Grate.Props.C106_encrypted_partial",
    "Grate.Props.C106_xlsx_partial"
   ],
   "note": "True if all outputs can be created (C106). False otherwise: C107_xls and C107_xlsx say exactly what happens, the outputs of the sheets before the failure are written, those after it are not, and only the error is reported."
  },
  {
   "property": "C108",
   "status": "partial",
   "theorems": [
    "Grate.Props.C108_open_partial",
    "Grate.Props.C108_witness",
    "Grate.Props.C108_counterexample",
    "Grate.Props.C37_whole_partial",
    "Grate.Props.C37_streams_partial"
   ],
   "note": "True for every file that is no compound file and no archive, for compound files of whole sectors whose chains can be followed (cycles and nonsense included) and whose workbook records have the bytes they announce, and for archives within the limits of C62. False otherwise: hangs and crashes for three small files."
  },
  {
   "property": "C109",
   "status": "partial",
   "theorems": [
    "Grate.Props.C109_number_partial",
    "Grate.Props.C109_small_partial",
    "Grate.Props.C109_witness",
    "Grate.Props.C109_counterexample"
   ],
   "note": "True for whole numbers of at most eleven digits under formats that are not text formats, and below a million under every format. False otherwise: a million under the Text format shows as 1000000 or 1e+06, and a number of twelve digits under General with all digits or as 1e+11."
  },
  {
   "property": "C110",
   "status": "partial",
   "theorems": [
    "Grate.Props.C110_sheet_partial",
    "Grate.Props.C110_open_partial",
    "Grate.Props.C110_witness",
    "Grate.Props.C110_counterexample"
   ],
   "note": "True for the files of C77 and C78 and cells with the same values, whole numbers as in C109, texts, links, and results of formulas under General. False for error values in cells with a number format: #N/A in the xls file shows as 0 from the xlsx file."
  },
  {
   "property": "C111",
   "status": "partial",
   "theorems": [
    "Grate.Props.C111_open_partial",
    "Grate.Props.C111_again_partial",
    "Grate.Props.C111_exported_partial",
    "Grate.Props.C111_witness",
    "Grate.Props.C111_long_counterexample",
    "Grate.Props.C111_ragged_counterexample"
   ],
   "note": "True for sheets with rows of one width (all sheets of xls and xlsx files) if no line written reaches 64 KiB and the text is neither a compound file nor an archive. False for longer lines, and for text files with rows of different widths that are only recognised thanks to their blank rows: opening the output fails."
  },
  {
   "property": "C112",
   "status": "proved",
   "theorems": [
    "Grate.Props.C112_opener",
    "Grate.Props.C112_open",
    "Grate.Props.C112_witness"
   ],
   "note": "The order in which Go ranges over maps is a parameter that is the same for both files: the two have the same possible behaviours. Reading the archive itself is not modelled."
  },
  {
   "property": "C113",
   "status": "proved",
   "theorems": [
    "Grate.Props.C113_name",
    "Grate.Props.C113_seen",
    "Grate.Props.C113_witness"
   ],
   "note": "The parameters for the order of ranging over maps and for the buffers are the same for both files."
  },
  {
   "property": "C114",
   "status": "proved",
   "theorems": [
    "Grate.Props.C114_opener",
    "Grate.Props.C114_open",
    "Grate.Props.C114_witness"
   ],
   "note": "Which parts matter is the inductive predicate Matters; names of parts are resolved with the functions of the model that C61 is about, so that the theorem covers malformed names too. The order of ranging over maps is a parameter that is the same for both files."
  },
  {
   "property": "C115",
   "status": "proved",
   "theorems": [
    "Grate.Props.C115_opener",
    "Grate.Props.C115_open",
    "Grate.Props.C115_file",
    "Grate.Props.C115_witness"
   ],
   "note": "For tokens and for the bytes of the parts. A comment inside a text is not covered: it divides the text (see C58). The attributes of an element have distinct local names."
  },
  {
   "property": "C116",
   "status": "proved",
   "theorems": [
    "Grate.Props.C116_workbook",
    "Grate.Props.C116_listed",
    "Grate.Props.C116_witness",
    "Grate.Props.C116_text_counterexample"
   ],
   "note": "For xls and xlsx sources and all names; for texts for the names of List (C116_text_counterexample: a text gives the same collection, with its cursor, under every other name too). A program is a strategy that may depend on all it has seen."
  },
  {
   "property": "C117",
   "status": "proved",
   "theorems": [
    "Grate.Props.C117_opener",
    "Grate.Props.C117_open",
    "Grate.Props.C117_witness"
   ],
   "note": "The parts of a sheet are those that the identifiers of all sheets of its name refer to (the first would do). Parts are compared up to comments and the order of attributes, as in C115. Shared strings and styles are not sheets: if they are damaged, Open fails."
  },
  {
   "property": "C118",
   "status": "proved",
   "theorems": [
    "Grate.Props.C118_opener",
    "Grate.Props.C118_open",
    "Grate.Props.C118_crlf",
    "Grate.Props.C118_final",
    "Grate.Props.C118_limit",
    "Grate.Props.C118_witness"
   ],
   "note": "For the TSV opener and for Open. C118_limit: the bound for CR LF is sharp, a line of 65535 bytes can be read with LF and not with CR LF."
  },
  {
   "property": "C119",
   "status": "partial",
   "theorems": [
    "Grate.Props.C119_open_partial",
    "Grate.Props.C119_counterexample",
    "Grate.Props.C119_witness"
   ],
   "note": "Missing: xlsx files whose styles or shared strings relationships lead to several parts, for which it is false (C119_counterexample: the same cell is one string or another, depending on the order). The orders are the only choice of the runtime that is varied; the contents of memory beyond slices are the same in both openings."
  },
  {
   "property": "C120",
   "status": "partial",
   "theorems": [
    "Grate.Props.C120_file_partial",
    "Grate.Props.C120_decided_partial",
    "Grate.Props.C120_witness"
   ],
   "note": "Missing: files outside of StreamIn, whose chains or directories the reader does not follow as the format says (C36, C39)."
  },
  {
   "property": "C121",
   "status": "partial",
   "theorems": [
    "Grate.Props.C121_partial",
    "Grate.Props.C121_witness",
    "Grate.Props.C121_counterexample"
   ],
   "note": "True for sheets whose records have the bytes they announce (as in C53), even if what they say is nonsense. False for a Dimensions record that is cut off: the size is read from the bytes behind it, which belong to the next sheet (C121_counterexample)."
  },
  {
   "property": "C122",
   "status": "partial",
   "theorems": [
    "Grate.Props.C122_xls_partial",
    "Grate.Props.C122_xls_numbering_partial",
    "Grate.Props.C122_xlsx_partial",
    "Grate.Props.C122_xlsx_numbering_partial",
    "Grate.Props.C122_witness",
    "Grate.Props.C122_numbering_witness",
    "Grate.Props.C122_xlsx_witness",
    "Grate.Props.C122_xlsx_numbering_witness",
    "Grate.Props.C49_wide_counterexample"
   ],
   "note": "True for all ways to store cells that C49 and C58 cover, for sheets that are not empty. False for a wide text in two xls records, which makes reading crash (C49_wide_counterexample), while the same text in one record is read."
  },
  {
   "property": "C123",
   "status": "partial",
   "theorems": [
    "Grate.Props.C123_disk_partial",
    "Grate.Props.C123_running_partial",
    "Grate.Props.C123_same_partial",
    "Grate.Props.C123_sheets_partial",
    "Grate.Props.C123_exits_partial",
    "Grate.Props.C123_witness",
    "Grate.Props.C123_mixed_counterexample",
    "Grate.Props.C123_crash_counterexample"
   ],
   "note": "True if the outputs have distinct paths and no file makes the program panic. False otherwise: of x/a.xls and y/a.xls the one output can hold a line that is in neither (C123_mixed_counterexample), and a file that panics (C106_dialog_counterexample) can leave the output of an earlier file empty although it is in the report (C123_crash_counterexample). Failing writes are not modelled."
  },
  {
   "property": "C124",
   "status": "partial",
   "theorems": [
    "Grate.Props.C124_cut_partial",
    "Grate.Props.C124_spare_partial",
    "Grate.Props.C124_header",
    "Grate.Props.C124_counterexample",
    "Grate.Props.C124_text_counterexample",
    "Grate.Props.C124_witness"
   ],
   "note": "True if the buffer the file was read into has no room behind it (C124_cut_partial), also for chains and tables the reader misreads. In general the cut file is read like the file that goes on with what is in the buffer behind it (C124_spare_partial), so that it is false: after losing the end of its last sector a file opens without an error with 32 in a cell instead of 100000 (C124_counterexample). A file cut off in its header opens as a text (C124_text_counterexample). A cut allocation table can make Open panic (C37_panic_counterexample)."
  },
  {
   "property": "C125",
   "status": "partial",
   "theorems": [
    "Grate.Props.C125_opener",
    "Grate.Props.C125_open_partial",
    "Grate.Props.C125_sheet",
    "Grate.Props.C125_bytes",
    "Grate.Props.C125_text_counterexample",
    "Grate.Props.C125_links_counterexample",
    "Grate.Props.C125_package_counterexample",
    "Grate.Props.C125_witness"
   ],
   "note": "True for the relationships of the workbook, the workbook part, the styles, the shared strings and the parts of sheets (reading damaged styles can also end the program, see C76). False for a part that ends after markup or in a text: the end of the bytes is taken for the end of the part, and 123 becomes 12 (C125_text_counterexample); for the relationships of a sheet, whose links are lost silently (C125_links_counterexample); and without the relationships of the package the file may open as a text (C125_package_counterexample)."
  },
  {
   "property": "C126",
   "status": "partial",
   "theorems": [
    "Grate.Props.C126_xls",
    "Grate.Props.C126_xlsx_counterexample",
    "Grate.Props.C126_witness"
   ],
   "note": "True of xls files. False of xlsx files: the state of a sheet element is not read (C126_xlsx_counterexample)."
  },
  {
   "property": "C127",
   "status": "partial",
   "theorems": [
    "Grate.Props.C127_plain_partial",
    "Grate.Props.C127_counterexample"
   ],
   "note": "False: nothing sets the field IsProtected returns, so that it is false for encrypted workbooks as well (C127_counterexample, with the MD5 and RC4 of the Go library). For plain workbooks it is false, as it should be."
  },
  {
   "property": "C128",
   "status": "proved",
   "theorems": [
    "Grate.Props.C128_values",
    "Grate.Props.C128_snapshot",
    "Grate.Props.C128_sheet",
    "Grate.Props.C128_witness"
   ],
   "note": "Cells as references to arrays on a heap (Model/CellHeap), with append in place or in a new array. Programs that copy the slice of a cell themselves, and what is left after a recovered panic, are not covered."
  },
  {
   "property": "C129",
   "status": "partial",
   "theorems": [
    "Grate.Props.C129_xlsx_partial",
    "Grate.Props.C129_xls_partial",
    "Grate.Props.C129_names_xls",
    "Grate.Props.C129_text",
    "Grate.Props.C129_prints",
    "Grate.Props.C129_formula_counterexample",
    "Grate.Props.C129_link_counterexample",
    "Grate.Props.C129_commas_counterexample",
    "Grate.Props.C129_xlsx_witness",
    "Grate.Props.C129_xls_witness",
    "Grate.Props.C129_text_witness"
   ],
   "note": "True of text files, of xlsx files apart from Strings, and of the names of the sheets of xls files. False of formula results in 8-bit form in xls files, whose bytes are copied (C129_formula_counterexample), of the paths of links to files (C129_link_counterexample), and of Strings where a format puts thousands separators into text that is not ASCII (C129_commas_counterexample); C129_xls_partial excludes the first two, StringsValid the last. For any Go library that prints numbers in ASCII and dates in valid layouts as valid text (C129_prints)."
  },
  {
   "property": "C130",
   "status": "partial",
   "theorems": [
    "Grate.Props.C130_xlsx_partial",
    "Grate.Props.C130_xls_partial",
    "Grate.Props.C130_xlsx_counterexample",
    "Grate.Props.C130_xls_counterexample",
    "Grate.Props.C130_xlsx_witness"
   ],
   "note": "Proved: cells that no link covers are as without the links, in xlsx sheets and in xls sheets with any content; URL gives the target of each link in xlsx sheets. False: the value of a cell with a link is replaced by the target (xlsx) or by its display text and target (xls); links inside an xlsx workbook erase the text of their cell, and Strings gives <nil> for it; links over several cells overwrite all of them with markers (xls) or panic (xlsx, C62_counterexample); URL gives nothing in xls sheets."
  },
  {
   "property": "C131",
   "status": "partial",
   "theorems": [
    "Grate.Props.C131_archive_partial",
    "Grate.Props.C131_package_partial",
    "Grate.Props.C131_bare_partial",
    "Grate.Props.C131_archive_counterexample",
    "Grate.Props.C131_document_counterexample",
    "Grate.Props.C131_witness",
    "Grate.Props.C131_more_witness"
   ],
   "note": "Proved: archives without a readable part _rels/.rels are never taken for workbooks, and exactly when they are answered with ErrUnknownFormat; packages without a relationship to a main document, and documents whose main part has no relationships, are not opened. False: archives of at most 25 lines of bytes open as text files; documents of word processors and presentations open as workbooks without sheets; packages without a relationship to a main document (XPS, and workbooks in the strict form of the standard) get the message xlsx: invalid document, and bare documents io.EOF, not ErrUnknownFormat."
  },
  {
   "property": "C132",
   "status": "partial",
   "theorems": [
    "Grate.Props.C132_sheet_partial",
    "Grate.Props.C132_opener_partial",
    "Grate.Props.C132_open_partial",
    "Grate.Props.C132_asValues_counterexample",
    "Grate.Props.C132_counterexample",
    "Grate.Props.C132_witness"
   ],
   "note": "True for formulas with a stored result that is not the empty text, in cells of any type but that of shared strings, and for formulas without a text of their own (which refer to that of another cell). False for all other formulas: a formula whose result is the empty text, or that was never computed, is itself given as the value of the cell (C132_asValues_counterexample); a comparison that was never computed is false unless its text begins with 1 (C132_counterexample)."
  },
  {
   "property": "C133",
   "status": "partial",
   "theorems": [
    "Grate.Props.C133_partial",
    "Grate.Props.C133_custom_counterexample",
    "Grate.Props.C133_witness"
   ],
   "note": "True for the formats of the standard that are the same in all languages, and for blank cells, links and the marks in merged cells (General). False for all formats that workbooks define: Formats gives the number of the format instead of its code (C133_custom_counterexample). The remaining built-in formats (which depend on the language) are not covered."
  },
  {
   "property": "C134",
   "status": "partial",
   "theorems": [
    "Grate.Props.C134_scan",
    "Grate.Props.C134_row",
    "Grate.Props.C134_types_partial",
    "Grate.Props.C134_integer_counterexample",
    "Grate.Props.C134_counterexample",
    "Grate.Props.C134_witness",
    "Grate.Props.C134_custom_partial",
    "Grate.Props.C134_custom_counterexample",
    "Grate.Props.C134_percent_counterexample",
    "Grate.Props.C134_custom_witness"
   ],
   "note": "If Types names the type of the stored value, Scan gives it, for single cells and whole rows (C134_scan, C134_row). Types does so for numbers with formats for decimals, for all values with General and for texts with the format for texts (C134_types_partial). False for the formats for whole numbers: all numbers with the same part before the point become the same cell (C134_integer_counterexample), texts become 0, and the empty text with the format for texts becomes <nil> (C134_counterexample). Of the formats that workbooks define, those with decimals and plain text around the number give floats (C134_custom_partial), those without decimals cut numbers off, so that 25% with the format 0% is 0 (C134_custom_counterexample, C134_percent_counterexample); other codes are not covered."
  },
  {
   "property": "C135",
   "status": "partial",
   "theorems": [
    "Grate.Props.C135_xls_partial",
    "Grate.Props.C135_xlsx_partial",
    "Grate.Props.C135_reserved",
    "Grate.Props.C135_xlsx_reserved",
    "Grate.Props.C135_counterexample",
    "Grate.Props.C135_xlsx_witness"
   ],
   "note": "From the bytes of the stream or the parts of the archive to Apply, for every number that has no fixed meaning in the built-in tables and is defined once (C135_xls_partial, C135_xlsx_partial). False for all numbers of the built-in tables: their definitions are ignored (C135_reserved, C135_xlsx_reserved), so a workbook that defines format 42 in euros is shown in dollars (C135_counterexample). The repository's own basic2 test files define the formats 59 to 61 and are affected."
  },
  {
   "property": "C136",
   "status": "partial",
   "theorems": [
    "Grate.Props.C136_first_part",
    "Grate.Props.C136_report_partial",
    "Grate.Props.C136_known",
    "Grate.Props.C136_unreported",
    "Grate.Props.C136_counterexample"
   ],
   "note": "The first half is proved in full, for every buffer size and every sequence of faults, during and after the export (C136_first_part). The second half is proved for disks that take everything (C136_report_partial) and false otherwise: the report does not depend on the faults (C136_unreported), so an empty file is reported as two rows without an error (C136_counterexample), although the error that Flush returns always tells (C136_known)."
  },
  {
   "property": "C137",
   "status": "partial",
   "theorems": [
    "Grate.Props.C137_content",
    "Grate.Props.C137_run",
    "Grate.Props.C137_open_partial",
    "Grate.Props.C137_row",
    "Grate.Props.C137_counterexample",
    "Grate.Props.C137_witness"
   ],
   "note": "The bytes are proved in full (C137_content, and C137_run on top of C63_log for all interleavings). That the report reads back as these rows is proved for names and messages without tabs and line breaks and lines below 64 KiB (C137_open_partial; C137_row: a row tells time, names and counts), and false otherwise: a file name with tabs and a line break gives the report of two other files (C137_counterexample). Two processes with the same report at the same time are outside the model (the file is not opened for appending)."
  },
  {
   "property": "C138",
   "status": "partial",
   "theorems": [
    "Grate.Props.C138_flags_partial",
    "Grate.Props.C138_unique",
    "Grate.Props.C138_default",
    "Grate.Props.C138_ignored",
    "Grate.Props.C138_counterexample",
    "Grate.Props.C138_pretend",
    "Grate.Props.C138_witness"
   ],
   "note": "For all settings but -w=false with -r (C138_flags_partial; the description determines the text, C138_unique, and is that of C65 for the defaults, C138_default). False for that setting: -r then has no effect on any sheet (C138_ignored), so cells with tabs and line breaks break the table (C138_counterexample). -p: C138_pretend, for all files and flags."
  },
  {
   "property": "C139",
   "status": "partial",
   "theorems": [
    "Grate.Props.C139_text",
    "Grate.Props.C139_sheet_partial",
    "Grate.Props.C139_blank_counterexample",
    "Grate.Props.C139_date_counterexample",
    "Grate.Props.C139_merged",
    "Grate.Props.C139_differ_counterexample",
    "Grate.Props.C139_witness"
   ],
   "note": "True of texts (C139_text). For sheets the exact condition is proved (C139_sheet_partial: success with the values if all of them are of the named kinds, an error otherwise). False for cells with the empty text (C139_blank_counterexample) and texts with date formats (C139_date_counterexample); parts of merged cells have the type static, which is not documented (C139_merged). Too few or too many variables and *int64 have different outcomes on texts and sheets, up to a crash (C139_differ_counterexample)."
  },
  {
   "property": "C140",
   "status": "partial",
   "theorems": [
    "Grate.Props.C140_members",
    "Grate.Props.C140_file_partial",
    "Grate.Props.C140_same",
    "Grate.Props.C140_declined",
    "Grate.Props.C140_text",
    "Grate.Props.C140_witness"
   ],
   "note": "The members for all archives (C140_members); the document with the limits of C78. compress/flate and hash/crc32 are parameters; archives of the Zip64 extension are left out. C140_text discharges the hypothesis of C79 that a text is not an archive."
  },
  {
   "property": "C141",
   "status": "partial",
   "theorems": [
    "Grate.Props.C141_detected",
    "Grate.Props.C141_sheet_partial",
    "Grate.Props.C141_open",
    "Grate.Props.C141_counterexample",
    "Grate.Props.C141_witness"
   ],
   "note": "From the bytes of the file, for data of the length in the directory. False of archives whose directory has zero for the checksums (C141_counterexample), and of the relationships of sheets and of the package (C125_links_counterexample, C125_package_counterexample)."
  },
  {
   "property": "C142",
   "status": "partial",
   "theorems": [
    "Grate.Props.C142_checksum",
    "Grate.Props.C142_member",
    "Grate.Props.C142_sheet_partial",
    "Grate.Props.C142_open",
    "Grate.Props.C142_five_counterexample",
    "Grate.Props.C142_witness",
    "Grate.Props.C142_five_witness"
   ],
   "note": "From the bytes of the file with archive/zip and hash/crc32 as modelled, for checksums other than zero or with data descriptors (see C141_counterexample). For compressed members, when the decompressed data differ within four bytes (C142_checksum with C141_detected); other damage of compressed data is left to the decompressor, a parameter. Four is the limit: any five bytes can be replaced without being noticed (C142_five_counterexample)."
  },
  {
   "property": "C143",
   "status": "partial",
   "theorems": [
    "Grate.Props.C143_sheet_partial",
    "Grate.Props.C143_file_partial",
    "Grate.Props.C143_counterexample",
    "Grate.Props.C143_witness"
   ],
   "note": "For worksheets whose merged regions end inside both sizes, within the limits of C58 and C78. False otherwise: merged regions are cut off at the declared size, and without a dimension element nothing is marked (C143_counterexample)."
  },
  {
   "property": "C144",
   "status": "partial",
   "theorems": [
    "Grate.Props.C144_truth_partial",
    "Grate.Props.C144_xls",
    "Grate.Props.C144_xlsx_partial",
    "Grate.Props.C144_number_counterexample",
    "Grate.Props.C144_shown_counterexample",
    "Grate.Props.C144_error_counterexample",
    "Grate.Props.C144_witness"
   ],
   "note": "True for error values of xls files under every format (C144_xls), and for truth values and error values of xlsx files under General and Text. False otherwise: under every format of numbers truth values become the numbers 1 and 0 (C144_number_counterexample), and #DIV/0! of an xlsx file under #,##0 is shown as 0 (C144_error_counterexample)."
  },
  {
   "property": "C145",
   "status": "partial",
   "theorems": [
    "Grate.Props.C145_sheet_partial",
    "Grate.Props.C145_file_partial",
    "Grate.Props.C145_counterexample",
    "Grate.Props.C145_link_counterexample",
    "Grate.Props.C145_witness"
   ],
   "note": "For worksheets where regions up to the last row or column of the format are in sheets that declare to have them and hyperlinks do not begin outside, within the limits of C49 and C78. False otherwise: a merged region of the last two columns is not marked if fewer columns are declared (C145_counterexample), and hyperlinks outside of the declared size are dropped (C145_link_counterexample)."
  },
  {
   "property": "C146",
   "status": "partial",
   "theorems": [
    "Grate.Props.C146_shown_partial",
    "Grate.Props.C146_date_counterexample",
    "Grate.Props.C146_sheet_counterexample",
    "Grate.Props.C146_witness"
   ],
   "note": "Under General and Text the date is shown as it is stored (C146_shown_partial). False for every date under every format for dates: the cell is said to be a date, Scan into a time fails, and an error message is shown in place of the date (C146_date_counterexample, C146_sheet_counterexample; ParseFloat as in GoParses)."
  },
  {
   "property": "C147",
   "status": "partial",
   "theorems": [
    "Grate.Props.C147_opener_partial",
    "Grate.Props.C147_open_partial",
    "Grate.Props.C147_file_partial",
    "Grate.Props.C147_cell_counterexample",
    "Grate.Props.C147_string_counterexample",
    "Grate.Props.C147_witness"
   ],
   "note": "True for any character data outside the elements c and si, for the archive and for the bytes of the parts. False inside them: white space after the value of a cell replaces the value, for every cell (TRUE becomes FALSE, a shared string becomes the first of the table), and white space in an entry of the table becomes part of the string. Elements c and si that are nested in each other are left out (they are not allowed)."
  },
  {
   "property": "C148",
   "status": "proved",
   "theorems": [
    "Grate.Props.C148_opener",
    "Grate.Props.C148_open",
    "Grate.Props.C148_file",
    "Grate.Props.C148_witness"
   ],
   "note": "The elements and attributes that are read are listed in readElems and readAttrs (by their local names, which is how the code compares them; an element of another name space with one of these names is read as well). Text inside other elements that are inside cells or strings is not covered (C97, C132, C147), nor are nested c and si elements, which the format does not allow."
  },
  {
   "property": "C149",
   "status": "partial",
   "theorems": [
    "Grate.Props.C149_sheet",
    "Grate.Props.C149_file_partial",
    "Grate.Props.C149_witness",
    "Grate.Props.C149_between_counterexample"
   ],
   "note": "C149_sheet is about any records, damaged ones included, and any outcome. For files, missing: sheets with records that are cut off, as in C121 (the code then reads on in the bytes of the next record, which may be one of the other records), and objects inside objects (C51). A record between a String record and its Continue record is not valid and cuts off the text (C149_between_counterexample)."
  },
  {
   "property": "C150",
   "status": "partial",
   "theorems": [
    "Grate.Props.C150_xlsx_partial",
    "Grate.Props.C150_xls_partial",
    "Grate.Props.C150_xlsx_witness",
    "Grate.Props.C150_xls_witness"
   ],
   "note": "For xlsx the parts of the two sheets may hold anything; missing is what C61 leaves out of workbooks (e.g. an absolute target of the workbook part, several style parts). For xls, missing: sheets with records that are cut off, as in C121."
  },
  {
   "property": "C151",
   "status": "partial",
   "theorems": [
    "Grate.Props.C151_opener_partial",
    "Grate.Props.C151_open_partial",
    "Grate.Props.C151_counterexample",
    "Grate.Props.C151_witness"
   ],
   "note": "False of the code: for every such text that opens, the rows with the mark differ (C151_counterexample). What is so: it opens exactly if it does without the mark, and all fields but the first are the same, the first being the mark followed by what it should be. For Open, that the zip reader takes neither file is assumed."
  },
  {
   "property": "C152",
   "status": "proved",
   "theorems": [
    "Grate.Props.C152_widths",
    "Grate.Props.C152_order",
    "Grate.Props.C152_open",
    "Grate.Props.C152_witness"
   ],
   "note": "For Open, that the files are not compound files and that the zip reader takes neither is assumed."
  }
 ]
}