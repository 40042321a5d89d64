claim("C10", "proved", ["C10_last_write_wins"], "Any completed history, also with shrinking resizes.")
claim("C11", "proved", ["C11_put_no_panic", "C11_witness", "C11_negative_resize_counterexample"], "Non-negative sizes are needed (counterexample).")
claim("C12", "proved", ["C12_rectangular", "C12_witness", "C12_shrink_counterexample"], "")
claim("C13", "proved", ["C13_cursor", "C13_drain", "C13_drain_raw", "C13_written_row_visited", "C13_extra_row"], "Iteration also yields one extra blank row.")
claim("C14", "partial", ["C14_types_truthful_partial", "C14_numeric_dates_partial", "C14_date_counterexample"], "False for text and booleans stored with date formats; everything else proved.")
claim("C15", "partial", ["C15_scan_partial", "C15_never_invalid_scan_type", "C15_counterexample", "C15_witness"], "Positions and types proved; the ErrInvalidScanType part is false of the code.")
claim("C16", "proved", ["C16_marker", "C16_text", "C16_marker_sheet"], "")
claim("C17", "partial", ["C17_isEmpty_partial", "C17_fresh", "C17_counterexample"], "False for sheets whose only value is A1.")
claim("C18", "partial", ["C18_ignored_partial", "C18_written", "C18_counterexample"], "False at row = NumRows / column = NumCols and on never-written cells.")
claim("C19", "partial", ["C19_fits", "C19_never_wrong_partial", "C19_uint_counterexample", "C19_witness"], "False for uint above the int64 range; all other integer types proved.")
claim("C20", "proved", ["C20_type", "C20_bool", "C20_int", "C20_float", "C20_str"], "Float parsing and printing are external parameters.")
claim("C21", "partial", ["C21_str", "C21_bool", "C21_int_less", "C21_float_less", "C21_float_equal", "C21_int_equal_partial", "C21_int_equal_counterexample"], "Order proved for every type, Equal for text, booleans and finite floats; Equal on integers is proved up to 2^53 and false beyond (counterexample).")
claim("C22", "partial", ["C22_nonnumeric_partial", "C22_numeric_partial", "C22_witness", "C22_symmetry_counterexample", "C22_time_counterexample", "C22_nan_counterexample"], "Proved among non-numeric cells and among numeric cells (except NaN reflexivity); false for a number against text and for times.")
claim("C23", "proved", ["C23_builtin_unalterable"], "For any compilation of custom codes.")
claim("C24", "proved", ["C24_add_other", "C24_first_wins", "C24_history", "C24_general_replaces", "C24_witness"], "")
claim("C25", "partial", ["C25_get_partial", "C25_apply_counterexample", "C25_witness"], "False for Apply, which panics.")
claim("C26", "proved", ["C26_commas", "C26_delete_commas", "C26_groups", "C26_witness"], "")
claim("C27", "proved", ["C27_neg_parens"], "")
claim("C28", "proved", ["C28_sections", "C28_witness"], "")
claim("C29", "proved", ["C29_tables_agree"], "")
claim("C30", "partial", ["C30_float_partial", "C30_counterexample", "C30_truncation_counterexample", "C30_int_actual"], "False of the code for integers; negation proved. Floats with an integral value proved.")
claim("C06", "proved", ["C06_order_independent", "C06_rule", "C06_witness"], "The documented rule is proved for files with fewer than 2^50 rows (float64 comparison against 0.8).")
claim("C31", "proved", ["C31_calendar", "C31_epoch", "C31_day", "C31_civil", "C31_consecutive", "C31_witness"], "For integral serials from -2483588 to 2^46; beyond these the 64-bit arithmetic of the code or of time.Date overflows.")
claim("C33", "proved", ["C33_read", "C33_readAll", "C33_interior_empty"], "Slices built by the package are non-empty up to unused slots at the end; an empty slice in the middle would end the stream early (C33_interior_empty).")
claim("C34", "partial", ["C34_seek_partial", "C34_terminates", "C34_invalid", "C34_history", "C34_counterexample_rewind", "C34_counterexample_end"], "Any history of reads and seeks that does not hit one of the two panics behaves like a file; seeking back to 0 relatively and seeking to the end panic (counterexamples).")
claim("C35", "proved", ["C35_stream", "C35_file", "C35_witness"], "For any document in memory; C35_file goes from the bytes of the file (entry among the first four directory slots, see C39).")
claim("C36", "partial", ["C36_mini", "C36_file_partial", "C36_witness", "C36_counterexample"], "Extraction proved for any mini FAT in memory; but only the first sector of the mini FAT is ever loaded, so mini sectors from 128 on panic (counterexample).")
claim("C37", "partial", ["C37_terminates_partial", "C37_witness", "C37_counterexample", "C37_panic_counterexample"], "Terminates whenever the DIFAT chain ends (or there is none); false for cyclic DIFAT chains; panics on truncated FAT sectors.")
claim("C38", "proved", ["C38_declined", "C38_witness"], "")
claim("C39", "partial", ["C39_list_partial", "C39_actual", "C39_counterexample", "C39_witness"], "True for up to four entries without gaps; false beyond (only the first directory sector is read).")
claim("C40", "proved", ["C40_chunks", "C40_same", "C40_reset", "C40_witness"], "MD5 and RC4 are parameters (digests of 16 bytes).")
claim("C41", "partial", ["C41_restores_partial", "C41_actual", "C41_witness", "C41_counterexample"], "Exact for streams whose last record has data; a last record without data (the EOF record) is dropped by the pass, everything before it restored.")
claim("C42", "proved", ["C42_verify", "C42_witness"], "MD5 and RC4 are parameters (digests of 16 bytes).")

claim("C46", "partial", ["C46_table_partial", "C46_ends", "C46_witness", "C46_counterexample"],
      "for every list of texts and every legal layout over continuation records the parsed table is the list of texts; missing exactly the layouts leaving one byte of formatting/phonetic data in the record of the wide characters before it, which the code refuses (counterexample proved)")
claim("C47", "proved", ["C47_short", "C47_long", "C47_witness"], "all texts up to 255/65535 units, 8- and 16-bit, any bytes following, consumed length included")
claim("C66", "proved", ["C66_decode", "C66_split", "C66_unpaired", "C66_plain", "C66_encode", "C66_text", "C66_witness"],
      "decoding inverts UTF-16 encoding; unpaired surrogates become U+FFFD and leave their surroundings alone; UTF-8 output agrees with Lean's encoder")
claim("C43", "partial", ["C43_record", "C43_records", "C43_truncated_partial", "C43_witness", "C43_counterexample"],
      "every record list is read back in order; a last record cut inside its data is reported; false for a cut inside the 4-byte header, where the record is silently dropped (counterexample)")
claim("C44", "proved", ["C44_groups", "load_content", "C44_witness"], "for all well-formed substream sequences, nested blocks included; load_content: loading succeeds with the content said by the records")
claim("C45", "proved", ["C45_sheets", "C45_complete", "C45_witness"], "from the bytes of the stream; with duplicate names Get gives the first")
claim("C67", "proved", ["C67_encrypted", "C67_refused", "C67_witness"], "up to the final empty EOF record, which is dropped (C41); MD5 and RC4 are parameters (digests of 16 bytes)")
claim("C48", "partial", ["C48_rk_partial", "C48_integer_100", "C48_counterexample", "C48_witness"],
      "three of the four kinds for all bit patterns; integers divided by 100 always decode to 0 (proved)")
claim("C49", "partial", ["C49_sheet_partial", "C49_file_partial", "C49_encrypted_partial", "C49_witness", "C49_wide_counterexample"],
      "from the bytes of the stream to every cell of the sheet, for all record kinds; missing: RK integers divided by 100 (C48), formula texts that are 8-bit non-ASCII or 16-bit and longer than one record (panic proved), nested embedded blocks (C51)")
claim("C50", "partial", ["C50_merge_partial", "C50_witness", "C50_counterexample"],
      "for every sheet and region; false for a region to column 0xFF of a sheet that declares no columns (counterexample)")
claim("C51", "partial", ["C51_skip_partial", "C51_witness", "C51_counterexample"],
      "removing a block without nested blocks changes nothing, whatever the records around and in it; false for nested blocks (counterexample)")
claim("C52", "partial", ["C52_decode_partial", "C52_trims_unique", "C52_counterexample"],
      "all well-formed hyperlinks; a location replaces the link to the target when both are stored (counterexample)")
claim("C53", "partial", ["C53_split_partial", "C53_witness", "C53_counterexample"],
      "splitting into substreams never panics for streams below 64 kB that begin with BOF; other malformed inputs panic (counterexamples; also those of C36, C37, C49)")
claim("C54", "partial", ["C54_1900_partial", "C54_counterexample"],
      "false for 1904 workbooks: the flag is never used (counterexample); the 1900 epoch is used in every loaded workbook")
claim("C55", "proved", ["C55_decode", "C55_reference", "C55_distinct", "C55_all", "C55_witness", "C55_r1c1"],
      "all columns and rows below 2^63-1; C55_r1c1 records what happens to references of the other style")
claim("C56", "proved", ["C56_strings", "C56_cell", "C56_witness"], "XML is given as token streams (encoding/xml is not modelled)")
claim("C57", "partial", ["C57_styles_partial", "C57_witness", "C57_counterexample"],
      "for all style parts with ids up to 32767 where number formats are disabled by \"0\"; false for \"false\" and for larger ids (counterexample)")
claim("C58", "partial", ["C58_cells_partial", "C58_sheet_partial", "C58_witness", "C58_counterexample"],
      "for every list of cells; missing: white space between the elements of a cell, inline strings with several runs, and hyperlinks over a value (counterexamples)")
claim("C59", "proved", ["C59_merge", "C59_witness"], "the same predicate (Merged) as for xls (C50)")
claim("C60", "proved", ["C60_again", "C60_first", "C60_unknown", "C60_listed", "C60_closed", "C60_witness"], "for all histories of Get and cursor moves")
claim("C61", "partial", ["C61_open_partial", "C61_sheet_partial", "C61_witness", "C61_counterexample"],
      "from the archive to the cells of the sheet; an absolute target of the workbook part itself is not found (counterexample)")
claim("C62", "partial", ["C62_parts_partial", "C62_styles_partial", "C62_open_partial", "C58_sheet_partial", "C62_witness", "C62_counterexample"],
      "relationship, workbook and string parts never crash, whatever their tokens; opening does not unless a style part has one of three causes; worksheets of the grammar of C58 do not; nine kinds of crashes proved")

claim("C63", "proved", ["C63_log", "C63_running", "C63_files", "C63_witness"],
  "Transition system of main, any number of workers, the cleanup goroutine, both channels, wait group, mutex and output pool; invariants over all reachable states. processFile is a job with arbitrary outputs and lines; C63_files plugs in the model of processFile. Panics in processFile and failing writes to the log are not modelled.")
claim("C64", "partial", ["C64_flushed", "C64_safe", "C64_progress_partial", "C64_terminates", "C64_exits_partial", "C64_counterexample"],
  "False on a machine with one CPU (no workers: stuck on the first file, C64_counterexample). With two or more CPUs: no reachable state is stuck, every execution is finite, every one that exits has flushed and closed every output exactly once.")
claim("C65", "proved", ["C65_content", "C65_unique", "C65_lines", "C65_reopened", "C65_file", "C65_witness"],
  "Reopening goes through the TSV reader, which may decline the file (C06) or refuse lines of 64 KiB (C05).")
claim("C68", "partial", ["C68_paths_partial", "C68_counterexample"],
  "False: sheet names differing only in non-alphanumeric characters collide, and so do files with equal base names in different directories or with different extensions. Proved for alphanumeric sheet names of one file.")
claim("C69", "partial", ["C65_file", "C69_columns_partial", "C69_counterexample"],
  "Rows: proved (C65_file, ReportOf). Columns: the number reported is one less than the number of columns in use (C69_counterexample); C69_columns_partial says exactly what is reported.")
claim("C32", "partial",
      ["C32_digits_partial", "C32_nearest_partial", "C32_witness", "C32_counterexample",
       "C32_whole_partial", "C32_whole_witness", "C32_render_partial", "C32_render_witness", "C32_ends", "C32_ends_witness"],
      "Proved on float64 arithmetic, for every v in (0,1) with v >= 1e-9 (or at least 10 digits for the denominator) and 1 to 15 digits: the loop ends, the digit limits hold, and the numerator is nearest up to 2^-52. Whole part and fraction, and the text of the fraction formats, for all finite numbers below 2^63; splitting a number into whole part and fraction ends on every float64, NaN and infinities included. False for 0 < v < 1e-9 with fewer digits (C32_counterexample: 1/1000000000). Missing: more than 15 digits.")

claim("C70", "partial", ["C70_decimals_partial", "C70_integers_partial", "C70_floats_partial", "C70_witness", "C70_witness_value",
       "C70_zeros_counterexample", "C70_text_counterexample", "C70_rounding_counterexample"],
      "Proved for every code [text][#,##]0[.00][%][text] with text free of the characters the compiler misreads inside quotes; the digits of a float are those fmt.Sprintf prints (a parameter). False for leading zeros (000), quoted text with e, E, a point or placeholders, and rounding without decimals.")
claim("C71", "partial", ["C71_dates_partial", "C71_witness", "C71_minutes_counterexample", "C71_weekday_counterexample",
       "C71_ampm_counterexample", "C71_elapsed_counterexample", "C71_quoted_counterexample"],
      "Proved for every sequence of different fields with separators, bare or quoted, where minutes stand between hours and seconds. False for h:mm and mm:ss (the month is shown), dddd, AM/PM, elapsed hours and field letters in quotes.")
claim("C72", "partial", ["C72_marks", "C72_sections", "C72_witness", "C72_quoted_counterexample"],
      "Proved for all sections without semicolons and brackets and all marks; false for a semicolon in quotes.")
claim("C73", "partial", ["C73_builtin_dates_partial", "C73_witness", "C73_counterexample"],
      "Whole table; false for formats 36 and 50, which show the day for the month.")
claim("C74", "partial", ["C74_text_partial", "C74_witness", "C74_integer_counterexample", "C74_float_counterexample",
       "C74_total_counterexample", "C74_date_counterexample", "C74_empty_counterexample"],
      "Proved for the General and text formats. False for the others: under number formats the text becomes 0, under date formats an error message; the empty text becomes <nil> under the text format.")
claim("C75", "partial", ["C75_plain_partial", "C75_accounting_partial", "C75_short_partial", "C75_witness", "C75_counterexample"],
      "Proved for plain number, percent, scientific, General and text formats, for accounting formats if the text is no number, and for short texts under formats with separators. False: To,tal under #,##0, an error message under fraction and date formats, a crash for the empty text.")
claim("C76", "partial", ["C76_apply", "C76_strings", "C76_workbook", "C76_witness", "C76_strings_witness", "C76_workbook_witness", "C76_counterexample"],
      "Proved for every value but the empty text, every sheet written by Put under known formats, and every workbook sheet whose formula results are not the empty text, given that Go's printing functions never print nothing. False for the empty text under formats with separators or parentheses.")

claim("C77", "partial", ["C77_xls_partial", "C77_witness", "C77_counterexample"],
      "From the bytes of the file to the cells, for compound documents with the Workbook stream among the first four directory entries and unencrypted workbooks as in C49. False for a Workbook entry further back: the file opens as a text (C77_counterexample).")
claim("C78", "partial", ["C78_xlsx_partial", "C61_witness", "C82_xlsx_witness"],
      "From the archive to the cells; the parts of the archive are given as token lists (archive/zip and encoding/xml are not modelled). Limits of C58 and C61.")
claim("C79", "proved", ["C79_text", "C79_witness"],
      "Through the table of registered formats; the zip reader has to refuse the file.")
claim("C80", "partial", ["C80_column_partial", "C80_counterexample", "C80_witness"],
      "False for every table of plain fields with a row of two or more fields: the text format accepts the file first and gives one field per line. True for one column.")
claim("C81", "partial", ["C81_unknown_partial", "C81_counterexample", "C81_compound_counterexample", "C81_witness"],
      "Exact condition for ErrUnknownFormat for files that are no compound documents and no zip archives; false for every such file of at most 25 lines, for example a PNG image, and for a compound document without a workbook: they open as text.")
claim("C82", "partial", ["C82_files", "C82_error", "C82_text", "C82_xls_partial", "C82_witness", "C82_xlsx_partial", "C82_xlsx_witness",
       "C82_counterexample", "C82_dialog_witness", "C82_verbose", "C82_sheets", "C82_sheets_witness"],
      "Order of files, errors and texts are proved in full; xls and xlsx files within the limits of C76, C77 and C78. False for xls files with a dialog sheet: the command crashes and the files after it are not printed.")
claim("C83", "proved", ["C83_missing", "C83_witness"],
      "For every error that is not itself one of the not-in-format errors.")
claim("C84", "partial", ["C84_xls_partial", "C84_xlsx_partial", "C84_counterexample", "C84_witness"],
      "The columns are exact and the rows are exact but for one blank row more at the end, always (C84_counterexample).")

claim("C85", "partial", ["C85_xls_partial", "C85_text", "C85_xlsx", "C85_counterexample", "C85_witness"],
      "True for xls. False for xlsx and texts: the second Get gives the collection as it was left, so one that was read to its end has no rows (C85_counterexample); what it gives instead is proved in C85_xlsx and C85_text.")

claim("C86", "partial", ["C86_builtin_partial", "C86_custom_partial", "C86_days_partial", "C86_witness", "C86_hour_counterexample",
       "C86_quotes_counterexample", "C86_elapsed_counterexample", "C86_tenths_counterexample", "C86_ampm_counterexample",
       "C86_letter_counterexample"],
      "time.Format is modelled. Proved for seventeen built-in formats and all custom formats readable as in C71 with separators free of digits and of J, M, P, p, Z, for every moment up to the year 9999 (hours of one letter from ten o'clock). False: h before ten o'clock has a zero, quotes are shown, [h] is a twelve-hour clock, .0 drops zeros, AM/PM is copied, mmmmm shows three letters.")
claim("C87", "partial", ["C87_near_partial", "C87_second_partial", "C87_exact_partial", "C87_witness", "C87_counterexample"],
      "False: ten o'clock is shown as 09:59, because the fraction of the day is cut off and not rounded. Proved: the moment is right to two nanoseconds (50 microseconds before serial 61), the second shown is the right one or the one before, and times that floats hold exactly are shown exactly.")

claim("C88", "partial", ["C88_fixed_partial", "C88_grouped_partial", "C88_parens_partial", "C88_custom_partial", "C88_percent_partial",
       "C88_custom_percent_partial", "C88_determined", "C88_infinite", "C88_witness", "C88_percent_counterexample", "C88_whole_counterexample"],
      "fmt.Sprintf is modelled (GoPrints). Proved for all formats with decimals that are no percents, ties to even; for percents the number rounded is within 2^-j of a hundred times the value (double rounding: 0.00125 shows 0.12%, C88_percent_counterexample). Formats without decimals cut off (C88_whole_counterexample). Infinities get a comma (C88_infinite).")
claim("C89", "partial", ["C89_cents_partial", "C89_whole_partial", "C89_negative_counterexample", "C89_witness"],
      "Zero and positive amounts as claimed. Negative amounts have no parentheses under 41 and 43, and a minus sign inside the parentheses under 42 and 44.")
claim("C90", "partial", ["C90_science_partial", "C90_custom_partial", "C90_witness", "C90_engineering_counterexample"],
      "Proved for 0.00E+00 and for all custom codes 0.0...0E+00. False for ##0.0E+0, whose powers are not multiples of three, and for codes with one exponent digit, which show two.")

claim("C91", "proved", ["C91_cell", "C91_text", "C91_scan", "C91_coerce", "C91_determined", "C91_witness"],
      "strconv.ParseFloat is modelled on decimal numerals (GoParses), and its rounding is proved to give the nearest float64 for numerals of all lengths. For xlsx cells within the limits of C58 (no white space between the elements of a cell).")
claim("C92", "proved", ["C92_exact", "C92_zero", "C92_int", "C92_cell", "C92_witness"],
      "strconv.FormatFloat with the shortest digits is modelled (GoShort): two decimals of at most fifteen digits are never read as the same float64, so the shortest digits found are those typed.")
claim("C93", "partial", ["C93_close_partial", "C93_width_partial", "C93_counterexample", "C93_negative_counterexample", "C93_witness"],
      "False: 1234567.8912 shows 1.23457e+06 (six digits) though 1234567.891 fits, and -1234567.8912 takes seventeen characters. Proved: what is shown is read as the same number or is within a 200000th part of it, and positive numbers with exponents of two digits take at most eleven characters.")
claim("C94", "partial", ["C94_roundtrip", "C94_text_partial", "C94_counterexample", "C94_witness"],
      "The way to text and back is proved for all finite numbers other than zero. Under the Text format true from 0.0001 up to a million; 5551234 shows 5.551234e+06.")

claim("C95", "proved", ["C95_part", "C95_same", "C95_file", "C95_witness", "C95_text_witness"],
      "encoding/xml is modelled on bytes (Model/GoXml); the ways to write tokens are XmlText (XML 1.0 without document type declarations, which the packaging standard forbids, names in ASCII). What the tokens mean has the limits of C58 and C61. archive/zip is a list of named byte strings.")
claim("C96", "partial", ["C96_counterexample", "C96_reported_partial", "C96_witness"],
      "False for every part in UTF-16: the document is declined or the sheet has an error. Proved: the error is always reported, nothing is misread.")
claim("C97", "partial", ["C97_strings_partial", "C97_witness", "C97_counterexample"],
      "True without phonetic runs and white space between elements; otherwise their text is part of the string shown (C97_counterexample).")
claim("C98", "partial", ["C98_plain_partial", "C98_witness", "C98_counterexample"],
      "True for strings without such escapes; _x000D_ is shown as it is written (C98_counterexample).")
claim("C99", "partial", ["C99_1900_partial", "C99_counterexample"],
      "The declaration is never looked at: every document is read with the 1900 date system. The counterexample is a complete document, which is also the witness for the partial theorem.")
claim("C100", "partial", ["C100_dropped", "C100_counterexample", "C100_witness", "C58_cells_partial"],
      "False: cells without a reference are dropped without an error (C100_dropped, for every such cell). Cells with references are C58.")
claim("C56", "proved", ["C56_strings", "C56_cell", "C56_witness"], "On tokens; C95 has the tokens of a text. What belongs to a string is C97.")
claim("C58", "partial", ["C58_cells_partial", "C58_sheet_partial", "C58_witness", "C58_counterexample", "C58_text_counterexample"],
      "for every list of cells; missing: white space between the elements of a cell, inline strings with several runs, hyperlinks over a value, and comments in a value (counterexamples)")
claim("C62", "partial", ["C62_parts_partial", "C62_styles_partial", "C62_open_partial", "C58_sheet_partial", "C62_witness", "C62_counterexample", "C62_text_counterexample"],
      "relationship, workbook and string parts never crash, whatever their tokens; opening does not unless a style part has one of three causes; worksheets of the grammar of C58 do not; nine kinds of crashes proved, one from a well-formed text")
claim("C78", "partial", ["C78_xlsx_partial", "C95_file", "C61_witness", "C82_xlsx_witness", "C95_witness"],
      "From the bytes of the parts (C95_file) to the cells; archive/zip is not modelled. Limits of C58 and C61.")
claim("C53", "partial", ["C53_stream_partial", "C53_stream_witness", "C53_split_partial", "C53_witness", "C53_counterexample", "C53_string_counterexample", "C53_short_counterexample"],
      "C53_stream_partial: streams whose records have the bytes they announce never panic, in loading and in every Get, whatever the bytes say and wherever the stream ends; false for records that are too short, for the string number after the last and for String records without a formula (counterexamples; also those of C36, C37, C49)")
claim("C62", "partial", ["C62_parts_partial", "C62_styles_partial", "C62_open_partial", "C62_reference", "C62_sheet_partial", "C62_get_partial", "C58_sheet_partial", "C62_witness", "C62_sheet_witness", "C62_counterexample", "C62_text_counterexample", "C62_dimension_counterexample"],
      "relationship, workbook and string parts never crash, whatever their tokens; opening does not unless a style part has one of three causes; worksheets, and every Get of every history, do not unless a part has one of the causes excluded by SafeWs, whatever else is in it; references that crash are characterised exactly; ten kinds of crashes proved, one from a well-formed text")
claim("C101", "proved", ["C101_isolated", "C101_workbook", "C101_get", "C101_exclusive", "C101_progress", "C101_witness"],
      "Model/RecPool: records as objects in memory, the shared pool, one goroutine per workbook; steps are the single accesses. A workbook is used by one goroutine at a time and not after Close.")
claim("C102", "partial", ["C102_exact", "C102_close_partial", "C102_counterexample", "C102_witness"],
      "False of every xls workbook: after Close it still lists its sheets and Get of any of them crashes (index into the emptied list of substreams); C102_exact says that these are all the crashes.")
claim("C103", "partial", ["C103_exact", "C103_partial", "C103_counterexample"],
      "False of every file that can be read: the compound file reader never closes its file, and xlsx.Open does not when it declines; after Close one file is open for xls and xlsx, two for text files (C103_exact). True when the file cannot be opened and for the text openers alone.")
claim("C104", "partial", ["C104_partial", "C104_counterexample", "C104_witness"],
      "False of every row of every text file: Strings returns the row itself. True of sheets and of the other rows.")
claim("C105", "partial", ["C105_counterexample", "C105_largest", "C105_text_partial", "C105_text_witness"],
      "False: the size that a sheet of an xls workbook declares is allocated, 281 trillion cells for 118 bytes. True of text files.")
claim("C106", "partial", ["C106_xls_partial", "C106_xlsx_partial", "C106_xlsx_witness", "C106_text", "C106_counterexample",
                          "C106_dialog_counterexample", "C106_dialog_witness"],
      "False of sheets whose only cell is A1: they count as empty and their text is lost. An xls file with a dialog sheet crashes the command. True otherwise, for text files, xlsx files and unencrypted xls files in the stream Workbook, if the outputs can be created.")

def also(p, theorems, note):
    C[p]["theorems"] += ["Grate.Props." + t for t in theorems]
    C[p]["note"] = note

also("C77", ["C77_encrypted_partial", "C77_encrypted_witness", "C77_go_partial", "C77_go_witness"],
     "From the bytes of the file to the cells, for compound documents with the Workbook stream among the first four directory entries and workbooks as in C49, plain or encrypted with the default password (for any MD5 and RC4). False for a Workbook entry further back: the file opens as a text (C77_counterexample).")
also("C82", ["C82_encrypted_partial", "C82_encrypted_witness"],
     "Order of files, errors and texts are proved in full; xls (plain and encrypted) and xlsx files within the limits of C76, C77 and C78. False for xls files with a dialog sheet: the command crashes and the files after it are not printed.")
also("C106", ["C106_encrypted_partial"],
     "False of sheets whose only cell is A1: they count as empty and their text is lost. An xls file with a dialog sheet crashes the command. True otherwise, for text files, xlsx files and xls files (plain or encrypted) in the stream Workbook, if the outputs can be created.")
claim("C107", "partial", ["C107_xls", "C107_xlsx", "C107_counterexample", "C106_xls_partial", "C106_encrypted_partial", "C106_xlsx_partial"],
      "True if all outputs can be created (C106). False otherwise: C107_xls and C107_xlsx say exactly what happens, the outputs of the sheets before the failure are written, those after it are not, and only the error is reported.")
claim("C108", "partial", ["C108_open_partial", "C108_witness", "C108_counterexample", "C37_whole_partial", "C37_streams_partial"],
      "True for every file that is no compound file and no archive, for compound files of whole sectors whose chains can be followed (cycles and nonsense included) and whose workbook records have the bytes they announce, and for archives within the limits of C62. False otherwise: hangs and crashes for three small files.")
also("C37", ["C37_whole_partial", "C37_streams_partial", "C37_stream_counterexample"],
     "Terminates whenever the DIFAT chain ends (or there is none). No crash either for files of whole sectors with a DIFAT chain inside the file, whatever else they say, nor in opening their large streams if the numbers in the FAT can be followed. False for cyclic DIFAT chains (hangs), truncated FAT sectors and chains that lead to the end of the file (crashes).")
claim("C109", "partial", ["C109_number_partial", "C109_small_partial", "C109_witness", "C109_counterexample"],
      "True for whole numbers of at most eleven digits under formats that are not text formats, and below a million under every format. False otherwise: a million under the Text format shows as 1000000 or 1e+06, and a number of twelve digits under General with all digits or as 1e+11.")
claim("C110", "partial", ["C110_sheet_partial", "C110_open_partial", "C110_witness", "C110_counterexample"],
      "True for the files of C77 and C78 and cells with the same values, whole numbers as in C109, texts, links, and results of formulas under General. False for error values in cells with a number format: #N/A in the xls file shows as 0 from the xlsx file.")
claim("C111", "partial", ["C111_open_partial", "C111_again_partial", "C111_exported_partial", "C111_witness", "C111_long_counterexample", "C111_ragged_counterexample"],
      "True for sheets with rows of one width (all sheets of xls and xlsx files) if no line written reaches 64 KiB and the text is neither a compound file nor an archive. False for longer lines, and for text files with rows of different widths that are only recognised thanks to their blank rows: opening the output fails.")
claim("C112", "proved", ["C112_opener", "C112_open", "C112_witness"],
      "The order in which Go ranges over maps is a parameter that is the same for both files: the two have the same possible behaviours. Reading the archive itself is not modelled.")
claim("C113", "proved", ["C113_name", "C113_seen", "C113_witness"],
      "The parameters for the order of ranging over maps and for the buffers are the same for both files.")
claim("C114", "proved", ["C114_opener", "C114_open", "C114_witness"],
      "Which parts matter is the inductive predicate Matters; names of parts are resolved with the functions of the model that C61 is about, so that the theorem covers malformed names too. The order of ranging over maps is a parameter that is the same for both files.")
claim("C115", "proved", ["C115_opener", "C115_open", "C115_file", "C115_witness"],
      "For tokens and for the bytes of the parts. A comment inside a text is not covered: it divides the text (see C58). The attributes of an element have distinct local names.")
claim("C116", "proved", ["C116_workbook", "C116_listed", "C116_witness", "C116_text_counterexample"],
      "For xls and xlsx sources and all names; for texts for the names of List (C116_text_counterexample: a text gives the same collection, with its cursor, under every other name too). A program is a strategy that may depend on all it has seen.")
claim("C117", "proved", ["C117_opener", "C117_open", "C117_witness"],
      "The parts of a sheet are those that the identifiers of all sheets of its name refer to (the first would do). Parts are compared up to comments and the order of attributes, as in C115. Shared strings and styles are not sheets: if they are damaged, Open fails.")
claim("C118", "proved", ["C118_opener", "C118_open", "C118_crlf", "C118_final", "C118_limit", "C118_witness"],
      "For the TSV opener and for Open. C118_limit: the bound for CR LF is sharp, a line of 65535 bytes can be read with LF and not with CR LF.")
claim("C119", "partial", ["C119_open_partial", "C119_counterexample", "C119_witness"],
      "Missing: xlsx files whose styles or shared strings relationships lead to several parts, for which it is false (C119_counterexample: the same cell is one string or another, depending on the order). The orders are the only choice of the runtime that is varied; the contents of memory beyond slices are the same in both openings.")
claim("C120", "partial", ["C120_file_partial", "C120_decided_partial", "C120_witness"],
      "Missing: files outside of StreamIn, whose chains or directories the reader does not follow as the format says (C36, C39).")
claim("C121", "partial", ["C121_partial", "C121_witness", "C121_counterexample"],
      "True for sheets whose records have the bytes they announce (as in C53), even if what they say is nonsense. False for a Dimensions record that is cut off: the size is read from the bytes behind it, which belong to the next sheet (C121_counterexample).")
claim("C122", "partial", ["C122_xls_partial", "C122_xls_numbering_partial", "C122_xlsx_partial", "C122_xlsx_numbering_partial",
                          "C122_witness", "C122_numbering_witness", "C122_xlsx_witness", "C122_xlsx_numbering_witness", "C49_wide_counterexample"],
      "True for all ways to store cells that C49 and C58 cover, for sheets that are not empty. False for a wide text in two xls records, which makes reading crash (C49_wide_counterexample), while the same text in one record is read.")
claim("C123", "partial", ["C123_disk_partial", "C123_running_partial", "C123_same_partial", "C123_sheets_partial", "C123_exits_partial",
                          "C123_witness", "C123_mixed_counterexample", "C123_crash_counterexample"],
      "True if the outputs have distinct paths and no file makes the program panic. False otherwise: of x/a.xls and y/a.xls the one output can hold a line that is in neither (C123_mixed_counterexample), and a file that panics (C106_dialog_counterexample) can leave the output of an earlier file empty although it is in the report (C123_crash_counterexample). Failing writes are not modelled.")
claim("C124", "partial", ["C124_cut_partial", "C124_spare_partial", "C124_header", "C124_counterexample", "C124_text_counterexample", "C124_witness"],
      "True if the buffer the file was read into has no room behind it (C124_cut_partial), also for chains and tables the reader misreads. In general the cut file is read like the file that goes on with what is in the buffer behind it (C124_spare_partial), so that it is false: after losing the end of its last sector a file opens without an error with 32 in a cell instead of 100000 (C124_counterexample). A file cut off in its header opens as a text (C124_text_counterexample). A cut allocation table can make Open panic (C37_panic_counterexample).")
claim("C125", "partial", ["C125_opener", "C125_open_partial", "C125_sheet", "C125_bytes", "C125_text_counterexample",
                          "C125_links_counterexample", "C125_package_counterexample", "C125_witness"],
      "True for the relationships of the workbook, the workbook part, the styles, the shared strings and the parts of sheets (reading damaged styles can also end the program, see C76). False for a part that ends after markup or in a text: the end of the bytes is taken for the end of the part, and 123 becomes 12 (C125_text_counterexample); for the relationships of a sheet, whose links are lost silently (C125_links_counterexample); and without the relationships of the package the file may open as a text (C125_package_counterexample).")
claim("C126", "partial", ["C126_xls", "C126_xlsx_counterexample", "C126_witness"],
      "True of xls files. False of xlsx files: the state of a sheet element is not read (C126_xlsx_counterexample).")
claim("C127", "partial", ["C127_plain_partial", "C127_counterexample"],
      "False: nothing sets the field IsProtected returns, so that it is false for encrypted workbooks as well (C127_counterexample, with the MD5 and RC4 of the Go library). For plain workbooks it is false, as it should be.")
claim("C128", "proved", ["C128_values", "C128_snapshot", "C128_sheet", "C128_witness"],
      "Cells as references to arrays on a heap (Model/CellHeap), with append in place or in a new array. Programs that copy the slice of a cell themselves, and what is left after a recovered panic, are not covered.")
also("C40", ["go_digest"], "For any digest of 16 bytes and any key stream; go_digest: so for the MD5 and RC4 of the Go library (Model/GoCrypto).")
also("C41", ["C41_go_counterexample"], "Exact for streams whose last record has data; a last record without data (the EOF record) is dropped by the pass, everything before it restored; also with the MD5 and RC4 of the Go library (C41_go_counterexample).")
also("C42", ["C42_go_witness"], "For any digest of 16 bytes and any key stream; C42_go_witness: a header made with the MD5 and RC4 of the Go library.")
claim("C129", "partial", ["C129_xlsx_partial", "C129_xls_partial", "C129_names_xls", "C129_text", "C129_prints", "C129_formula_counterexample",
                          "C129_link_counterexample", "C129_commas_counterexample", "C129_xlsx_witness", "C129_xls_witness", "C129_text_witness"],
      "True of text files, of xlsx files apart from Strings, and of the names of the sheets of xls files. False of formula results in 8-bit form in xls files, whose bytes are copied (C129_formula_counterexample), of the paths of links to files (C129_link_counterexample), and of Strings where a format puts thousands separators into text that is not ASCII (C129_commas_counterexample); C129_xls_partial excludes the first two, StringsValid the last. For any Go library that prints numbers in ASCII and dates in valid layouts as valid text (C129_prints).")
claim("C130", "partial", ["C130_xlsx_partial", "C130_xls_partial", "C130_xlsx_counterexample", "C130_xls_counterexample",
                          "C130_xlsx_witness"],
      "Proved: cells that no link covers are as without the links, in xlsx sheets and in xls sheets with any content; URL gives the target of each link in xlsx sheets. False: the value of a cell with a link is replaced by the target (xlsx) or by its display text and target (xls); links inside an xlsx workbook erase the text of their cell, and Strings gives <nil> for it; links over several cells overwrite all of them with markers (xls) or panic (xlsx, C62_counterexample); URL gives nothing in xls sheets.")
claim("C131", "partial", ["C131_archive_partial", "C131_package_partial", "C131_bare_partial", "C131_archive_counterexample",
                          "C131_document_counterexample", "C131_witness", "C131_more_witness"],
      "Proved: archives without a readable part _rels/.rels are never taken for workbooks, and exactly when they are answered with ErrUnknownFormat; packages without a relationship to a main document, and documents whose main part has no relationships, are not opened. False: archives of at most 25 lines of bytes open as text files; documents of word processors and presentations open as workbooks without sheets; packages without a relationship to a main document (XPS, and workbooks in the strict form of the standard) get the message xlsx: invalid document, and bare documents io.EOF, not ErrUnknownFormat.")
claim("C132", "partial", ["C132_sheet_partial", "C132_opener_partial", "C132_open_partial", "C132_asValues_counterexample", "C132_counterexample", "C132_witness"],
      "True for formulas with a stored result that is not the empty text, in cells of any type but that of shared strings, and for formulas without a text of their own (which refer to that of another cell). False for all other formulas: a formula whose result is the empty text, or that was never computed, is itself given as the value of the cell (C132_asValues_counterexample); a comparison that was never computed is false unless its text begins with 1 (C132_counterexample).")
claim("C133", "partial", ["C133_partial", "C133_custom_counterexample", "C133_witness"],
      "True for the formats of the standard that are the same in all languages, and for blank cells, links and the marks in merged cells (General). False for all formats that workbooks define: Formats gives the number of the format instead of its code (C133_custom_counterexample). The remaining built-in formats (which depend on the language) are not covered.")
claim("C134", "partial", ["C134_scan", "C134_row", "C134_types_partial", "C134_integer_counterexample", "C134_counterexample", "C134_witness", "C134_custom_partial", "C134_custom_counterexample", "C134_percent_counterexample", "C134_custom_witness"],
      "If Types names the type of the stored value, Scan gives it, for single cells and whole rows (C134_scan, C134_row). Types does so for numbers with formats for decimals, for all values with General and for texts with the format for texts (C134_types_partial). False for the formats for whole numbers: all numbers with the same part before the point become the same cell (C134_integer_counterexample), texts become 0, and the empty text with the format for texts becomes <nil> (C134_counterexample). Of the formats that workbooks define, those with decimals and plain text around the number give floats (C134_custom_partial), those without decimals cut numbers off, so that 25% with the format 0% is 0 (C134_custom_counterexample, C134_percent_counterexample); other codes are not covered.")
claim("C135", "partial", ["C135_xls_partial", "C135_xlsx_partial", "C135_reserved", "C135_xlsx_reserved", "C135_counterexample", "C135_xlsx_witness"],
      "From the bytes of the stream or the parts of the archive to Apply, for every number that has no fixed meaning in the built-in tables and is defined once (C135_xls_partial, C135_xlsx_partial). False for all numbers of the built-in tables: their definitions are ignored (C135_reserved, C135_xlsx_reserved), so a workbook that defines format 42 in euros is shown in dollars (C135_counterexample). The repository's own basic2 test files define the formats 59 to 61 and are affected.")
claim("C136", "partial", ["C136_first_part", "C136_report_partial", "C136_known", "C136_unreported", "C136_counterexample"],
      "The first half is proved in full, for every buffer size and every sequence of faults, during and after the export (C136_first_part). The second half is proved for disks that take everything (C136_report_partial) and false otherwise: the report does not depend on the faults (C136_unreported), so an empty file is reported as two rows without an error (C136_counterexample), although the error that Flush returns always tells (C136_known).")
claim("C137", "partial", ["C137_content", "C137_run", "C137_open_partial", "C137_row", "C137_counterexample", "C137_witness"],
      "The bytes are proved in full (C137_content, and C137_run on top of C63_log for all interleavings). That the report reads back as these rows is proved for names and messages without tabs and line breaks and lines below 64 KiB (C137_open_partial; C137_row: a row tells time, names and counts), and false otherwise: a file name with tabs and a line break gives the report of two other files (C137_counterexample). Two processes with the same report at the same time are outside the model (the file is not opened for appending).")
claim("C138", "partial", ["C138_flags_partial", "C138_unique", "C138_default", "C138_ignored", "C138_counterexample", "C138_pretend", "C138_witness"],
      "For all settings but -w=false with -r (C138_flags_partial; the description determines the text, C138_unique, and is that of C65 for the defaults, C138_default). False for that setting: -r then has no effect on any sheet (C138_ignored), so cells with tabs and line breaks break the table (C138_counterexample). -p: C138_pretend, for all files and flags.")
claim("C139", "partial", ["C139_text", "C139_sheet_partial", "C139_blank_counterexample", "C139_date_counterexample", "C139_merged", "C139_differ_counterexample", "C139_witness"],
      "True of texts (C139_text). For sheets the exact condition is proved (C139_sheet_partial: success with the values if all of them are of the named kinds, an error otherwise). False for cells with the empty text (C139_blank_counterexample) and texts with date formats (C139_date_counterexample); parts of merged cells have the type static, which is not documented (C139_merged). Too few or too many variables and *int64 have different outcomes on texts and sheets, up to a crash (C139_differ_counterexample).")
claim("C140", "partial", ["C140_members", "C140_file_partial", "C140_same", "C140_declined", "C140_text", "C140_witness"],
      "The members for all archives (C140_members); the document with the limits of C78. compress/flate and hash/crc32 are parameters; archives of the Zip64 extension are left out. C140_text discharges the hypothesis of C79 that a text is not an archive.")
claim("C141", "partial", ["C141_detected", "C141_sheet_partial", "C141_open", "C141_counterexample", "C141_witness"],
      "From the bytes of the file, for data of the length in the directory. False of archives whose directory has zero for the checksums (C141_counterexample), and of the relationships of sheets and of the package (C125_links_counterexample, C125_package_counterexample).")
also("C78", ["C140_file_partial"], "From the bytes of the parts (C95_file) to the cells, and from the bytes of the file with archive/zip as modelled (C140_file_partial). Limits of C58 and C61.")
also("C79", ["C79_plain", "C79_plain_witness"], "Through the table of registered formats; for files that are no compound documents and that the zip reader refuses (C79_text), which every text without control characters is (C79_plain, with archive/zip as modelled).")
also("C80", ["C80_plain_counterexample"], "False for every table of plain fields with a row of two or more fields: the text format accepts the file first and gives one field per line (C80_plain_counterexample: from the bytes alone, with archive/zip as modelled). True for one column.")
claim("C142", "partial", ["C142_checksum", "C142_member", "C142_sheet_partial", "C142_open", "C142_five_counterexample", "C142_witness", "C142_five_witness"],
      "From the bytes of the file with archive/zip and hash/crc32 as modelled, for checksums other than zero or with data descriptors (see C141_counterexample). For compressed members, when the decompressed data differ within four bytes (C142_checksum with C141_detected); other damage of compressed data is left to the decompressor, a parameter. Four is the limit: any five bytes can be replaced without being noticed (C142_five_counterexample).")
claim("C143", "partial", ["C143_sheet_partial", "C143_file_partial", "C143_counterexample", "C143_witness"],
      "For worksheets whose merged regions end inside both sizes, within the limits of C58 and C78. False otherwise: merged regions are cut off at the declared size, and without a dimension element nothing is marked (C143_counterexample).")
claim("C144", "partial", ["C144_truth_partial", "C144_xls", "C144_xlsx_partial", "C144_number_counterexample", "C144_shown_counterexample", "C144_error_counterexample", "C144_witness"],
      "True for error values of xls files under every format (C144_xls), and for truth values and error values of xlsx files under General and Text. False otherwise: under every format of numbers truth values become the numbers 1 and 0 (C144_number_counterexample), and #DIV/0! of an xlsx file under #,##0 is shown as 0 (C144_error_counterexample).")
claim("C145", "partial", ["C145_sheet_partial", "C145_file_partial", "C145_counterexample", "C145_link_counterexample", "C145_witness"],
      "For worksheets where regions up to the last row or column of the format are in sheets that declare to have them and hyperlinks do not begin outside, within the limits of C49 and C78. False otherwise: a merged region of the last two columns is not marked if fewer columns are declared (C145_counterexample), and hyperlinks outside of the declared size are dropped (C145_link_counterexample).")
claim("C146", "partial", ["C146_shown_partial", "C146_date_counterexample", "C146_sheet_counterexample", "C146_witness"],
      "Under General and Text the date is shown as it is stored (C146_shown_partial). False for every date under every format for dates: the cell is said to be a date, Scan into a time fails, and an error message is shown in place of the date (C146_date_counterexample, C146_sheet_counterexample; ParseFloat as in GoParses).")
claim("C147", "partial", ["C147_opener_partial", "C147_open_partial", "C147_file_partial", "C147_cell_counterexample", "C147_string_counterexample", "C147_witness"],
      "True for any character data outside the elements c and si, for the archive and for the bytes of the parts. False inside them: white space after the value of a cell replaces the value, for every cell (TRUE becomes FALSE, a shared string becomes the first of the table), and white space in an entry of the table becomes part of the string. Elements c and si that are nested in each other are left out (they are not allowed).")
claim("C148", "proved", ["C148_opener", "C148_open", "C148_file", "C148_witness"],
      "The elements and attributes that are read are listed in readElems and readAttrs (by their local names, which is how the code compares them; an element of another name space with one of these names is read as well). Text inside other elements that are inside cells or strings is not covered (C97, C132, C147), nor are nested c and si elements, which the format does not allow.")
claim("C149", "partial", ["C149_sheet", "C149_file_partial", "C149_witness", "C149_between_counterexample"],
      "C149_sheet is about any records, damaged ones included, and any outcome. For files, missing: sheets with records that are cut off, as in C121 (the code then reads on in the bytes of the next record, which may be one of the other records), and objects inside objects (C51). A record between a String record and its Continue record is not valid and cuts off the text (C149_between_counterexample).")
claim("C150", "partial", ["C150_xlsx_partial", "C150_xls_partial", "C150_xlsx_witness", "C150_xls_witness"],
      "For xlsx the parts of the two sheets may hold anything; missing is what C61 leaves out of workbooks (e.g. an absolute target of the workbook part, several style parts). For xls, missing: sheets with records that are cut off, as in C121.")
claim("C151", "partial", ["C151_opener_partial", "C151_open_partial", "C151_counterexample", "C151_witness"],
      "False of the code: for every such text that opens, the rows with the mark differ (C151_counterexample). What is so: it opens exactly if it does without the mark, and all fields but the first are the same, the first being the mark followed by what it should be. For Open, that the zip reader takes neither file is assumed.")
claim("C152", "proved", ["C152_widths", "C152_order", "C152_open", "C152_witness"],
      "For Open, that the files are not compound files and that the zip reader takes neither is assumed.")
