{"id": "C01", "title": "Open dispatches by priority", "statement": "grate.Open(f) returns the outcome of a registered opener that does not answer ErrNotInFormat and whose priority number is minimal among all such openers; openers of strictly smaller priority number have all answered ErrNotInFormat.", "quantifier": "every finite sequence of Register calls (any names, priorities, ties, any order), every behaviour of the openers on the file", "why_tests_cant": "tests only ever see the four shipped formats registered in one link order; the claim ranges over all registration histories and all (possibly unstable) sort outcomes", "anchors": ["grate.go:Open", "grate.go:Register"]}
{"id": "C02", "title": "Open consults each opener at most once and reports ErrUnknownFormat exactly when all decline", "statement": "Open calls openers in non-decreasing priority order, never calls an opener after the first decisive one, calls none twice, and returns ErrUnknownFormat iff every registered opener answered an error recognised as ErrNotInFormat.", "quantifier": "every registration history and opener behaviour", "why_tests_cant": "needs all subsets of declining/erroring openers and all registration orders", "anchors": ["grate.go:Open", "errs.go:ErrUnknownFormat"]}
{"id": "C03", "title": "Wrapped not-in-format errors are recognised", "statement": "For every error e, errors.Is(WrapErr(e, ErrNotInFormat), ErrNotInFormat) holds, WrapErr(e) is e itself, the message shown is that of the first error, and the recognition survives arbitrary re-wrapping in second position.", "quantifier": "every error value and every wrapping depth", "why_tests_cant": "wrapping depth and content are unbounded", "anchors": ["errs.go:WrapErr", "errs.go:errx"]}
{"id": "C04", "title": "TSV round trip", "statement": "If a table of rows of cells is written with tab separators and newline terminators (cells free of tab, CR and LF, every line shorter than 64KiB) and the file is accepted, iterating the source yields exactly these rows, in order, cell for cell.", "quantifier": "every table of any number of rows/columns and any cell bytes satisfying the side conditions", "why_tests_cant": "unbounded tables and byte contents", "anchors": ["simple/tsv.go:OpenTSV", "simple/simple.go:simpleFile.Strings"]}
{"id": "C05", "title": "TSV opening loses no data", "statement": "For every file content, either OpenTSV fails because a line is too long, or the rows delivered are the lines of the file split at tabs: re-joining the fields with tabs gives back each line without its terminator.", "quantifier": "every byte string", "why_tests_cant": "all byte strings, including missing final newline, CRLF, empty file, empty lines", "anchors": ["simple/tsv.go:OpenTSV"]}
{"id": "C06", "title": "Delimited-text detection is deterministic", "statement": "The accept / ErrNotInFormat verdict of the delimited-text openers does not depend on map iteration order, and equals the documented rule (declined iff some width>=2 occurs more than 25 times and no width>=2 has both more than 10 rows and more than 80% of the rows).", "quantifier": "every file of fewer than 2^50 rows and every iteration order of the column-count map", "why_tests_cant": "Go randomises map order per run; a test samples one order", "anchors": ["simple/tsv.go:OpenTSV", "simple/csv.go:OpenCSV"]}
{"id": "C07", "title": "CSV files open and deliver their records", "statement": "For every file the CSV reader can parse to the end without error, opening it as CSV succeeds (unless it is declined by the detection rule) and iterating delivers the parsed records in order.", "quantifier": "every sequence of records produced by the CSV reader and its terminating condition", "why_tests_cant": "all files; the existing tests never open a CSV through OpenCSV", "anchors": ["simple/csv.go:OpenCSV"]}
{"id": "C08", "title": "Text source cursor protocol", "statement": "After opening a text source with n rows, Next returns true exactly n times and then false forever; after the k-th true, Strings is the k-th row and Types and Formats have the same length as Strings, with type 'blank' exactly at empty cells and 'string' elsewhere.", "quantifier": "every row list and every number of Next calls", "why_tests_cant": "unbounded rows and call histories", "anchors": ["simple/simple.go:Next", "simple/simple.go:Strings", "simple/simple.go:Types", "simple/simple.go:Formats"]}
{"id": "C09", "title": "Text source Scan contract", "statement": "Scan with a number of destinations different from the row width fails without writing any destination; otherwise destinations are filled left to right, each from its own column, and the first failing conversion stops the scan with all later destinations untouched; an *int destination receives exactly the decimal value of the cell whenever that value fits 64 bits.", "quantifier": "every row, every destination list", "why_tests_cant": "unbounded widths, all cell contents", "anchors": ["simple/simple.go:Scan"]}
{"id": "C10", "title": "Sheet: last write wins, all else is preserved", "statement": "After any sequence of cell writes and resizes on a sheet, reading cell (r,c) gives the cell built by the last write addressed to (r,c), and a blank cell if there was none: no write or resize ever loses or moves another cell.", "quantifier": "every sequence of Put and Resize calls with non-negative coordinates", "why_tests_cant": "all interleavings of growth, shrink and writes", "anchors": ["commonxl/sheet.go:Put", "commonxl/sheet.go:Resize"]}
{"id": "C11", "title": "Sheet writes never crash", "statement": "Put at any non-negative coordinates of a supported value, in any state reachable by Put and Resize, completes without panicking, whatever the declared dimensions were.", "quantifier": "every reachable sheet state, coordinate and value", "why_tests_cant": "out-of-declared-bounds writes in arbitrary histories", "anchors": ["commonxl/sheet.go:Put", "commonxl/sheet.go:Resize"]}
{"id": "C12", "title": "Rows are rectangular and aligned", "statement": "For every sheet built by Put (and resizes that never shrink), Strings, Types, Formats and Raw of every row have exactly NumCols entries and entry i describes the same cell i in all of them; none of them panics because of the row shape.", "quantifier": "every reachable sheet of growing dimensions, every row", "why_tests_cant": "all histories and rows", "anchors": ["commonxl/sheet.go:Strings", "commonxl/sheet.go:Types", "commonxl/sheet.go:Formats", "commonxl/sheet.go:Raw"]}
{"id": "C13", "title": "Sheet cursor protocol", "statement": "Starting from a freshly built sheet, Next/Strings visits every stored row exactly once, in order, then Next returns false forever and the cursor stays on the last row; every row holding a written cell is visited.", "quantifier": "every sheet and number of Next calls", "why_tests_cant": "unbounded rows and histories", "anchors": ["commonxl/sheet.go:Next"]}
{"id": "C14", "title": "Reported types agree with the stored values", "statement": "For every value stored by Put, the type reported by Types is truthful: 'boolean', 'integer', 'float', 'string' cells hold a bool, int64, float64, string respectively, so that Scan into the matching pointer succeeds; 'date' cells hold a time.", "quantifier": "every supported value and every format number, builtin or custom", "why_tests_cant": "all value/format combinations", "anchors": ["commonxl/cell.go:NewCellWithType", "commonxl/sheet.go:Put", "commonxl/sheet.go:Scan"]}
{"id": "C15", "title": "Sheet Scan is type-safe and sequential", "statement": "Scan never converts: destination i is written iff column i holds exactly that Go type and no earlier destination failed; on the first mismatch an error is returned and later destinations are untouched; unsupported destinations are reported as ErrInvalidScanType.", "quantifier": "every row and destination list", "why_tests_cant": "all rows and destination lists", "anchors": ["commonxl/sheet.go:Scan", "errs.go:ErrInvalidScanType"]}
{"id": "C16", "title": "Merge markers come back verbatim", "statement": "Writing one of the four merge markers to a cell makes Strings return exactly that marker for the cell and Types report 'static', for every format number given; any other text written with format 0 comes back as itself.", "quantifier": "every marker, every string, every format number, every sheet", "why_tests_cant": "all strings and formats", "anchors": ["commonxl/sheet.go:Put", "commonxl/sheet.go:Strings", "grate.go:ContinueColumnMerged"]}
{"id": "C17", "title": "IsEmpty reports exactly the sheets without data", "statement": "IsEmpty returns true only for sheets with no data values, and false for every sheet that holds a value.", "quantifier": "every reachable sheet", "why_tests_cant": "all histories", "anchors": ["commonxl/sheet.go:IsEmpty"]}
{"id": "C18", "title": "Editing an in-range cell is safe", "statement": "Set and SetURL on coordinates outside the sheet are ignored without crashing, and on an existing written cell change only that cell.", "quantifier": "every sheet and coordinates", "why_tests_cant": "boundary coordinates of every sheet size", "anchors": ["commonxl/sheet.go:Set", "commonxl/sheet.go:SetURL"]}
{"id": "C19", "title": "Integers are stored exactly", "statement": "NewCell of any Go integer value (int..int64, uint8..uint64, uint) stores the same mathematical integer when it fits in int64 and never stores a wrong integer.", "quantifier": "every value of every integer type", "why_tests_cant": "2^64 values per type", "anchors": ["commonxl/cell.go:NewCell"]}
{"id": "C20", "title": "Type coercion yields the requested type", "statement": "NewCellWithType(v, t) has type t for every bool, integer, float and non-empty string v and every requested type among boolean, integer, float, string, date, and the coercions are the expected ones (bool<->0/1, truncation, decimal parsing).", "quantifier": "every value and requested type", "why_tests_cant": "all values", "anchors": ["commonxl/cell.go:NewCellWithType"]}
{"id": "C21", "title": "Cell order is a strict order on like-typed cells", "statement": "On cells holding values of one type, Less is irreflexive, asymmetric and transitive and Equal is exactly equality of the values.", "quantifier": "every pair/triple of cells holding bool, int64, float64 or string values of one kind", "why_tests_cant": "all value triples", "anchors": ["commonxl/cell.go:Less", "commonxl/cell.go:Equal"]}
{"id": "C22", "title": "Cell equality is an equivalence", "statement": "Equal is reflexive and symmetric on all non-blank cells and never panics.", "quantifier": "every pair of cells, mixed types included", "why_tests_cant": "all mixed-type pairs", "anchors": ["commonxl/cell.go:Equal"]}
{"id": "C23", "title": "Built-in formats cannot be altered", "statement": "No sequence of Add calls changes what Apply does for a built-in format number.", "quantifier": "every sequence of Add calls (any id, any code), every value", "why_tests_cant": "all histories", "anchors": ["commonxl/formats.go:Add", "commonxl/formats.go:Apply"]}
{"id": "C24", "title": "The first definition of a custom format wins", "statement": "Once a custom format number has been defined, later Add calls with a different code other than 'general' are rejected with an error and leave its rendering and cell type unchanged; Add never affects another format number.", "quantifier": "every sequence of Add calls", "why_tests_cant": "all histories", "anchors": ["commonxl/formats.go:Add"]}
{"id": "C25", "title": "Unknown formats are reported, not fatal", "statement": "Apply and Get with an undefined format number return ok=false and fall back to a plain rendering.", "quantifier": "every format number and formatter state", "why_tests_cant": "65536 ids x all histories", "anchors": ["commonxl/formats.go:Apply", "commonxl/formats.go:Get"]}
{"id": "C26", "title": "Thousands separators never change the number", "statement": "For every 64-bit integer the '#,##0' rendering is its decimal numeral with commas exactly between groups of three digits counted from the right: deleting the commas gives back the plain numeral, the first group has 1-3 digits and every later group exactly 3.", "quantifier": "every 64-bit integer", "why_tests_cant": "2^64 values; the test samples powers of ten", "anchors": ["commonxl/fmt.go:addCommas", "commonxl/fmt.go:goFormatters"]}
{"id": "C27", "title": "Negative numbers in parentheses", "statement": "For formats 37 and 38 a negative integer n renders as '(' + commas(|n|) + ')' without a minus sign and a non-negative one renders as in format 3.", "quantifier": "every 64-bit integer", "why_tests_cant": "2^64 values", "anchors": ["commonxl/fmt.go:addNegParens"]}
{"id": "C28", "title": "Format sections are selected by sign", "statement": "A format with sections pos;neg;zero;text applies exactly the section matching the sign of the numeric value (missing sections falling back to the positive one, text to plain), for every number of sections.", "quantifier": "every value, every list of sections", "why_tests_cant": "all section lists and values", "anchors": ["commonxl/fmt.go:switchFmtFunc"]}
{"id": "C29", "title": "Built-in format tables agree", "statement": "The three built-in tables (codes, cell types, renderers) define exactly the same format numbers (0 has no type) and exactly the date-typed numbers have date renderers.", "quantifier": "every 16-bit format number", "why_tests_cant": "the whole table and its complement in 65536 ids", "anchors": ["commonxl/formats.go:builtInFormats", "commonxl/formats.go:builtInFormatTypes", "commonxl/fmt.go:goFormatters"]}
{"id": "C30", "title": "Percent formats show hundredfold values", "statement": "Formats 9 and 67 applied to the same numeric value give the same text whether the value is held as an integer or as a float, namely the value times 100 followed by '%'.", "quantifier": "every numeric value", "why_tests_cant": "all values and representations", "anchors": ["commonxl/fmt.go:sprintfFunc"]}
{"id": "C31", "title": "Date serials convert to the right day", "statement": "ConvertToDate of an integral serial n is the civil date n days after 1899-12-30 (1900 mode) or 1904-01-01 (1904 mode); consecutive serials are consecutive days across the boundary between the two conversion methods.", "quantifier": "every integral serial between -2483588 and 2^46 (outside, 64-bit day and second counts overflow)", "why_tests_cant": "all days, both modes", "anchors": ["commonxl/dates.go:ConvertToDate"]}
{"id": "C32", "title": "Fraction rendering respects the digit limits", "statement": "DecimalToFraction(v, nn, nd) terminates and returns a denominator >= 1 with at most nn digits in the numerator and nd digits in the denominator, for v in (0,1); the numerator is the one nearest to v for that denominator. A fraction format shows the whole part and that fraction.", "quantifier": "every v in (0,1), every nn, nd >= 1", "why_tests_cant": "all values", "anchors": ["commonxl/numbers.go:DecimalToFraction", "commonxl/numbers.go:DecimalToWholeFraction"]}
{"id": "C33", "title": "Stream reads deliver the concatenation", "statement": "Reading a stream assembled from sector slices with any sequence of buffer sizes delivers the bytes of the concatenation in order, without loss, duplication or reordering, and reports EOF exactly after the last byte.", "quantifier": "every list of non-empty slices, every sequence of read sizes", "why_tests_cant": "all slice layouts and read schedules", "anchors": ["xls/cfb/slicereader.go:Read"]}
{"id": "C34", "title": "Seek positions exactly", "statement": "After Seek to a valid position p (from start, current or end), the reported position is p and subsequent reads deliver the stream from byte p; invalid positions are reported as errors, never crashes.", "quantifier": "every slice layout, current position, offset and whence", "why_tests_cant": "all layouts and positions", "anchors": ["xls/cfb/slicereader.go:Seek"]}
{"id": "C35", "title": "Stream extraction follows the sector chain", "statement": "For every compound document whose allocation table holds the chain of a stream, opening the stream yields exactly the first 'size' bytes of the chained sectors, in chain order.", "quantifier": "every document, chain (any length, any sector order) and size", "why_tests_cant": "all layouts", "anchors": ["xls/cfb/cfb.go:getStreamReader", "xls/cfb/interface.go:Open"]}
{"id": "C36", "title": "Small stream extraction follows the mini chain", "statement": "Same for streams below the 4096-byte cutoff: the bytes are those of the chained 64-byte mini sectors of the root stream.", "quantifier": "every document, mini chain and size", "why_tests_cant": "all layouts", "anchors": ["xls/cfb/cfb.go:getMiniStreamReader"]}
{"id": "C37", "title": "Opening a compound document always terminates", "statement": "Loading any byte string as a compound document terminates with a document or an error.", "quantifier": "every byte string", "why_tests_cant": "hostile cyclic tables", "anchors": ["xls/cfb/cfb.go:load"]}
{"id": "C38", "title": "Non compound files are declined", "statement": "Any file that does not start with the compound-document signature is answered with ErrNotInFormat so that other formats are tried.", "quantifier": "every byte string", "why_tests_cant": "all byte strings", "anchors": ["xls/cfb/cfb.go:load", "xls/xls.go:Open"]}
{"id": "C39", "title": "All streams of the document are found", "statement": "Every stream present in the directory can be listed and opened by name.", "quantifier": "every document directory", "why_tests_cant": "all directory sizes and orders", "anchors": ["xls/cfb/cfb.go:buildDirs", "xls/cfb/interface.go:List", "xls/cfb/interface.go:Open"]}
{"id": "C40", "title": "Decryption is independent of write chunking", "statement": "The decrypted bytes depend only on the concatenation of the written bytes, not on how they were split into Write calls: byte k of the output is byte k of the input XOR the keystream of block k/1024 at offset k%1024.", "quantifier": "every sequence of Write calls, every keystream", "why_tests_cant": "all chunkings and lengths around 1024-byte block boundaries", "anchors": ["xls/crypto/rc4.go:Write", "xls/crypto/rc4.go:Flush"]}
{"id": "C41", "title": "Decrypting an encrypted workbook stream restores it", "statement": "For every record stream encrypted per MS-XLS (headers, exempt records and sheet positions in clear, everything else XOR the block keystream) the decryption pass hands exactly the original record stream to the parser.", "quantifier": "every record list, every key", "why_tests_cant": "all streams and alignments of records relative to the 1024-byte blocks", "anchors": ["xls/xls.go:loadFromStreamWithDecryptor", "xls/crypto/rc4.go"]}
{"id": "C42", "title": "Password verification accepts exactly the matching verifier", "statement": "An encrypted workbook is opened iff its verifier decrypts, under the default password and its salt, to a value whose hash equals the decrypted verifier hash.", "quantifier": "every header", "why_tests_cant": "all salts/verifiers", "anchors": ["xls/crypto/rc4.go:Verify", "xls/crypto/crypto.go:NewBasicRC4"]}
{"id": "C43", "title": "Record framing round trip", "statement": "Splitting a workbook stream into records is the inverse of writing them: any list of records serialised one after another is read back as the same list of (type, data); a truncated last record is reported as an error, never silently dropped or misread.", "quantifier": "every record list, every truncation point", "why_tests_cant": "all record lists and truncations", "anchors": ["xls/xls.go:nextRecord", "xls/xls.go:loadFromStream2"]}
{"id": "C44", "title": "Substream grouping loses no record", "statement": "Every record of the stream ends up in exactly one substream, in order; each well-formed substream (begin-of-file ... end-of-file, nested blocks included) forms its own group and the stream position of each group's first record leads to that group.", "quantifier": "every well-formed sequence of substreams", "why_tests_cant": "all nestings and lengths", "anchors": ["xls/xls.go:loadFromStream2"]}
{"id": "C45", "title": "Sheet listing is faithful", "statement": "List and ListHidden together name every sheet of the workbook exactly once, in file order, split by visibility; Get finds every listed name (visible or hidden) and fails with an error for any other name.", "quantifier": "every list of sheet entries and every name", "why_tests_cant": "all lists and visibility bytes", "anchors": ["xls/sheets.go:List", "xls/sheets.go:ListHidden", "xls/sheets.go:Get"]}
{"id": "C46", "title": "Shared strings survive any record split", "statement": "For every list of strings, each stored 8-bit or 16-bit, with or without rich-text runs and phonetic data, and every legal way of splitting the table over continuation records (switching the character width at the split), the parsed table is the original list.", "quantifier": "every string list, encoding choice and split", "why_tests_cant": "all splits x encodings", "anchors": ["xls/strings.go:parseSST"]}
{"id": "C47", "title": "Short and long sheet strings decode exactly", "statement": "decode(encode(s)) = s for names and format codes stored 8-bit or 16-bit, and the reported consumed length is the encoded length.", "quantifier": "every string up to 255 / 65535 code units", "why_tests_cant": "all strings", "anchors": ["xls/strings.go:decodeShortXLUnicodeString", "xls/strings.go:decodeXLUnicodeString"]}
{"id": "C48", "title": "Compressed numbers decode exactly", "statement": "Every 32-bit compressed (RK) number decodes to the value defined by the file format: the 30-bit integer, the 30-bit integer divided by 100, the truncated double, or that double divided by 100.", "quantifier": "every 32-bit pattern", "why_tests_cant": "2^32 patterns", "anchors": ["xls/structs.go:RKNumber.Int", "xls/structs.go:RKNumber.Float64", "xls/structs.go:RKNumber.IsInteger"]}
{"id": "C49", "title": "Cell records land in their cell", "statement": "Each number, multi-number, boolean, error, shared-string and formula record of a worksheet sets the cell at the row and column stored in the record to the stored value, with the number format selected by its style index.", "quantifier": "every well-formed record and workbook state", "why_tests_cant": "all records", "anchors": ["xls/sheets.go:parseSheet"]}
{"id": "C50", "title": "Merged regions are marked consistently (xls)", "statement": "For a merge region the top-left cell keeps its value, the rest of the first column is marked as row continuation with the stop marker in the last row, and the other cells as column continuation with the stop marker in the last column; no cell outside the region changes.", "quantifier": "every region and every sheet", "why_tests_cant": "all regions", "anchors": ["xls/sheets.go:parseSheet"]}
{"id": "C51", "title": "Embedded objects do not leak into the sheet", "statement": "Records inside embedded begin/end blocks (charts) never affect the cells of the surrounding sheet.", "quantifier": "every sheet record list with nested blocks", "why_tests_cant": "all nestings", "anchors": ["xls/sheets.go:parseSheet"]}
{"id": "C52", "title": "Hyperlink records decode to their text and target", "statement": "For every well-formed hyperlink record with optional display name, frame name, moniker string and location, the decoded display text and link are the stored ones (trimmed).", "quantifier": "every combination of optional parts and strings", "why_tests_cant": "all combinations", "anchors": ["xls/hyperlinks.go:decodeHyperlinks"]}
{"id": "C53", "title": "Malformed xls input is reported, not fatal", "statement": "No byte string makes opening a workbook crash; malformed input gives an error.", "quantifier": "every byte string", "why_tests_cant": "all inputs", "anchors": ["xls/xls.go:loadFromStream2", "xls/sheets.go:parseSheet", "xls/cfb/cfb.go"]}
{"id": "C54", "title": "The 1904 date setting of the workbook is honoured", "statement": "If the workbook declares the 1904 date system its date cells are converted with the 1904 epoch.", "quantifier": "every workbook", "why_tests_cant": "all workbooks", "anchors": ["xls/xls.go:loadFromStream2", "commonxl/formats.go:Mode1904"]}
{"id": "C55", "title": "A1 references are decoded exactly", "statement": "For every column index c and row index r, the reference written as column letters followed by the 1-based row number decodes to (c, r); distinct cells have distinct references.", "quantifier": "every column and row index within int64", "why_tests_cant": "all columns and rows", "anchors": ["xlsx/types.go:refToIndexes", "xlsx/types.go:col2int"]}
{"id": "C56", "title": "Shared string table order is preserved (xlsx)", "statement": "The i-th string item of the shared string part, being the concatenation of all its text, is what a cell with shared-string index i shows.", "quantifier": "every token stream of string items", "why_tests_cant": "all part contents", "anchors": ["xlsx/workbook.go:parseSharedStrings", "xlsx/sheets.go:parseSheet"]}
{"id": "C57", "title": "Cell styles select their number format (xlsx)", "statement": "Cell style k uses the number format of the k-th cell xf entry unless that entry disables number formats, in which case it is General.", "quantifier": "every style part", "why_tests_cant": "all parts", "anchors": ["xlsx/workbook.go:parseStyles"]}
{"id": "C58", "title": "Worksheet cells land at their reference (xlsx)", "statement": "For every worksheet part made of cells with distinct A1 references and one value each, the resulting sheet holds at every referenced position the value written there (number, boolean, text, shared string) and blanks elsewhere.", "quantifier": "every list of cells", "why_tests_cant": "all worksheets", "anchors": ["xlsx/sheets.go:parseSheet"]}
{"id": "C59", "title": "Merged regions are marked consistently (xlsx)", "statement": "xlsx merge regions inside the sheet dimension are marked by the same rule as xls ones.", "quantifier": "every region within the dimension", "why_tests_cant": "all regions", "anchors": ["xlsx/sheets.go:parseSheet"]}
{"id": "C60", "title": "Get is idempotent up to the cursor (xlsx)", "statement": "Getting the same worksheet again returns the same collection without re-reading the file, and sheets are found by exactly the names List reports, first match first; unknown names give an error.", "quantifier": "every document and Get history", "why_tests_cant": "all histories", "anchors": ["xlsx/xlsx.go:Get", "xlsx/xlsx.go:List"]}
{"id": "C61", "title": "Workbook parts are resolved through relationships", "statement": "Every sheet declared in the workbook part is listed once, in order, with its name, and reads the part its relationship id points to, absolute and relative targets alike.", "quantifier": "every relationship and workbook part", "why_tests_cant": "all parts", "anchors": ["xlsx/workbook.go:parseWorkbook", "xlsx/workbook.go:parseRels"]}
{"id": "C62", "title": "Malformed xlsx input is reported, not fatal", "statement": "No worksheet, style or relationship part content makes opening or reading crash.", "quantifier": "every token stream", "why_tests_cant": "all inputs", "anchors": ["xlsx/sheets.go:parseSheet", "xlsx/workbook.go:parseStyles", "xlsx/types.go:refToIndexes"]}
{"id": "C63", "title": "grate2tsv logs every file exactly once", "statement": "In every schedule of the workers, when grate2tsv exits each command-line file has been processed exactly once and its log lines appear contiguously, not interleaved with those of another file.", "quantifier": "every number of files and workers (>= 1), every interleaving", "why_tests_cant": "schedules", "anchors": ["cmd/grate2tsv/main.go:main", "cmd/grate2tsv/main.go:runProcessor"]}
{"id": "C64", "title": "grate2tsv flushes every output before exiting and never deadlocks", "statement": "Every output file handed to the cleanup goroutine is flushed and closed exactly once before exit and no reachable state is stuck, on every machine.", "quantifier": "every interleaving, every number of CPUs", "why_tests_cant": "schedules", "anchors": ["cmd/grate2tsv/main.go:main"]}
{"id": "C65", "title": "grate2tsv output is a valid TSV of the sheet", "statement": "With default flags the written file, read back as TSV, is exactly the non-blank rows of the sheet with whitespace normalised: one line per kept row, one field per column, no embedded tab or newline.", "quantifier": "every sheet content", "why_tests_cant": "all cell contents", "anchors": ["cmd/grate2tsv/main.go:processFile"]}
{"id": "C66", "title": "UTF-16 text is decoded faithfully", "statement": "For every sequence of Unicode scalar values, decoding its UTF-16 form gives the UTF-8 string of the same scalars; unpaired surrogates become U+FFFD and never swallow neighbours.", "quantifier": "every scalar sequence / every uint16 sequence", "why_tests_cant": "all sequences", "anchors": ["xls/strings.go", "commonxl/cell.go:NewCell"]}
{"id": "C67", "title": "Encrypted workbooks load like plain ones", "statement": "A workbook encrypted with the default password opens with the same sheets, shared strings, formats, styles and records as its plaintext; one whose header does not match that password, or that uses another kind of encryption, is refused with an error.", "quantifier": "every workbook stream, every position of the encryption header, every key", "why_tests_cant": "all workbooks and keys", "anchors": ["xls/xls.go:loadFromStream2", "xls/xls.go:loadFromStreamWithDecryptor", "xls/crypto/crypto.go:NewBasicRC4"]}
{"id": "C68", "title": "grate2tsv never overwrites one output with another", "statement": "Different sheets, of one file or of different files on the command line, get different output paths.", "quantifier": "every pair of file names and sheet names", "why_tests_cant": "all names", "anchors": ["cmd/grate2tsv/main.go:processFile"]}
{"id": "C69", "title": "grate2tsv reports the size of what it writes", "statement": "For every sheet the statistics give the number of rows written to its output and the number of columns in use.", "quantifier": "every sheet content", "why_tests_cant": "all sheets", "anchors": ["cmd/grate2tsv/main.go:processFile"]}
{"id": "C70", "title": "Custom number formats show what their code says", "statement": "A number format defined by the workbook with optional text, thousands separators, decimals and a percent sign shows every number with that text around it, its digits grouped and with that many decimals, and the cell gets the matching type.", "quantifier": "every such code, every number", "why_tests_cant": "all codes and numbers", "anchors": ["commonxl/formats.go:makeFormatter", "commonxl/formats.go:Add", "commonxl/fmt.go:addCommas"]}
{"id": "C71", "title": "Custom date formats show the fields of their code", "statement": "A date format defined by the workbook shows the fields named in its code, in their order and with the separators between them, and makes the cell a date.", "quantifier": "every code made of date fields and separators, every date", "why_tests_cant": "all codes and dates", "anchors": ["commonxl/formats.go:makeFormatter", "commonxl/dates.go:timeFmtFunc"]}
{"id": "C72", "title": "Sections of a custom format are independent", "statement": "A custom format of several sections shows each value as the section for its sign would show it on its own; marks in brackets such as colours change nothing.", "quantifier": "every list of sections, every value", "why_tests_cant": "all codes", "anchors": ["commonxl/formats.go:makeFormatter", "commonxl/fmt.go:switchFmtFunc"]}
{"id": "C73", "title": "Built-in date formats show the fields of their code", "statement": "Every built-in date format shows the fields of the code documented for its number, in the same order.", "quantifier": "every built-in format number", "why_tests_cant": "whole table", "anchors": ["commonxl/formats.go:builtInFormats", "commonxl/fmt.go:goFormatters"]}
{"id": "C74", "title": "Text cells show their text whatever the number format", "statement": "A text written into a cell under any number format is shown as that text: formats for numbers and dates do not apply to text.", "quantifier": "every text, every format number", "why_tests_cant": "all texts and formats", "anchors": ["commonxl/cell.go:NewCellWithType", "commonxl/sheet.go:Put", "commonxl/sheet.go:Strings"]}
{"id": "C75", "title": "Text results of formulas are shown as they are", "statement": "A formula cell whose cached result is text shows that text, whatever the number format of the cell.", "quantifier": "every text, every format number", "why_tests_cant": "all texts and formats", "anchors": ["xls/sheets.go:parseSheet", "commonxl/sheet.go:Set", "commonxl/fmt.go:addCommas"]}
{"id": "C76", "title": "Showing a row never crashes", "statement": "Applying a format that is built in or defined by the workbook to any value gives a text, and Strings completes on every row of every sheet whose cells carry such formats.", "quantifier": "every formatter, every value, every history of writes, every workbook sheet, every cursor position", "why_tests_cant": "all formatters, values and sheets", "anchors": ["commonxl/formats.go:Apply", "commonxl/fmt.go", "commonxl/sheet.go:Strings"]}
{"id": "C77", "title": "Opening an xls file gives its sheets", "statement": "grate.Open on a compound document with a workbook stream in it gives a source whose List names its visible sheets in order, and whose Get gives the cells that the records of the sheet write, with the formats of the workbook; an unknown name gives an error.", "quantifier": "every file, every workbook, every table of registered formats that holds the shipped ones", "why_tests_cant": "all files and workbooks", "anchors": ["grate.go:Open", "xls/xls.go:Open", "xls/cfb/cfb.go:Open", "xls/sheets.go:Get"]}
{"id": "C78", "title": "Opening an xlsx file gives its sheets", "statement": "grate.Open on an Office Open XML archive gives a source whose List names its sheets in order, and whose Get gives the cells that the elements of the sheet write, with the formats of the workbook; an unknown name gives an error.", "quantifier": "every archive, every table of registered formats that holds the shipped ones", "why_tests_cant": "all archives", "anchors": ["grate.go:Open", "xlsx/xlsx.go:Open", "xlsx/xlsx.go:Get"]}
{"id": "C79", "title": "Opening a tab separated text gives its lines", "statement": "grate.Open on a file that is no workbook, has no line of 64 KiB or more and does not mix line widths, gives a source that lists the base name of the file and whose rows are its lines split at tabs.", "quantifier": "every such file", "why_tests_cant": "all files", "anchors": ["grate.go:Open", "simple/tsv.go:OpenTSV"]}
{"id": "C80", "title": "Opening a comma separated text gives its fields", "statement": "grate.Open on a file of comma separated fields gives a source whose rows are these fields.", "quantifier": "every table of plain fields", "why_tests_cant": "all tables", "anchors": ["grate.go:Open", "simple/csv.go:OpenCSV", "simple/tsv.go:OpenTSV"]}
{"id": "C81", "title": "Unsupported files are reported as unknown", "statement": "grate.Open returns ErrUnknownFormat for a file that is in none of the supported formats, such as an image or a compound document of another program.", "quantifier": "every file", "why_tests_cant": "all files", "anchors": ["grate.go:Open", "simple/tsv.go:OpenTSV", "simple/csv.go:OpenCSV"]}
{"id": "C82", "title": "grater prints every row of every sheet", "statement": "The command grater writes, for each file in order, each sheet in order, one line per row with the displayed texts separated by tabs; a file that cannot be opened gives one line on standard error and does not stop the others.", "quantifier": "every list of files, all supported formats", "why_tests_cant": "all files and sheets", "anchors": ["cmd/grater/main.go:main"]}
{"id": "C83", "title": "The reason why a file cannot be read is reported", "statement": "If a file cannot be opened or read at all, grate.Open returns the error of the system, not that the format is unknown.", "quantifier": "every file name, every error", "why_tests_cant": "all errors", "anchors": ["grate.go:Open", "errs.go:WrapErr"]}
{"id": "C84", "title": "Reading a sheet gives exactly its rows", "statement": "The loop over the rows of a sheet gives as many rows, each of as many columns, as the sheet declares, or more only if it has cells beyond that.", "quantifier": "every sheet of every xls and xlsx file", "why_tests_cant": "all sheets", "anchors": ["commonxl/sheet.go:Resize", "commonxl/sheet.go:Next", "commonxl/sheet.go:Put"]}
{"id": "C85", "title": "Getting a sheet again reads it again", "statement": "A sheet that has been read, partly or to its end, can be read again from its first row by asking the source for it again.", "quantifier": "every source of every format, every sheet, every number of rows read", "why_tests_cant": "all histories", "anchors": ["grate.go:Source", "xls/sheets.go:Get", "xlsx/xlsx.go:Get", "simple/simple.go:Get"]}
{"id": "C86", "title": "Dates are shown as the format code says", "statement": "A date or time shown under a date format is the text its format code describes: each field of the code (year, month, day, hour, minute, second, in the number of letters given) is replaced by the corresponding part of the moment, and all other text is copied.", "quantifier": "every built-in and custom date format, every moment up to the year 9999, both date systems", "why_tests_cant": "the product of formats and moments is too large to sample; wrong months, names or paddings appear only at particular dates", "anchors": ["commonxl/dates.go:timeFmtFunc", "commonxl/fmt.go:goFormatters", "commonxl/formats.go:makeFormatter", "commonxl/dates.go:ConvertToDate"]}
{"id": "C87", "title": "Times of the day are right to the second", "statement": "A serial number that stands for a day and a time in whole seconds (the float64 nearest to it) is shown as exactly that time.", "quantifier": "every day from 1900 to 9999, each of the 86400 seconds of the day, both date systems", "why_tests_cant": "hundreds of billions of serials; the error depends on the direction in which each was rounded", "anchors": ["commonxl/dates.go:ConvertToDate", "commonxl/dates.go:timeFmtFunc"]}
{"id": "C88", "title": "Numbers are rounded to the decimals of their format", "statement": "A number shown under a format with a fixed number of decimals (0.00, #,##0.00, 0.0%, ...) is the decimal number with that many decimals that is nearest to it (to a hundred times it for percents), with its sign, the digits before the point grouped if the format says so.", "quantifier": "every finite float64, every built-in and custom format with a fixed number of decimals", "why_tests_cant": "2^64 floats; double rounding and ties go wrong only for particular values", "anchors": ["commonxl/fmt.go:sprintfFunc", "commonxl/fmt.go:addCommas", "commonxl/fmt.go:addNegParens", "commonxl/fmt.go:goFormatters", "commonxl/formats.go:makeFormatter"]}
{"id": "C89", "title": "Accounting formats", "statement": "Under the accounting formats (41 to 44) zero is shown as a dash, a positive amount with thousands separators, a negative one in parentheses without a minus sign, and the formats 42 and 44 put a dollar sign before it.", "quantifier": "every integer and every finite float64", "why_tests_cant": "all amounts", "anchors": ["commonxl/fmt.go:zeroDashFunc", "commonxl/fmt.go:switchFmtFunc", "commonxl/fmt.go:surround", "commonxl/fmt.go:goFormatters"]}
{"id": "C90", "title": "Scientific notation", "statement": "Under a scientific format (0.00E+00, ...) a number is shown as a digit other than zero, the decimals of the format and the power of ten with at least as many digits as the format has, correctly rounded; ##0.0E+0 uses powers that are multiples of three.", "quantifier": "every finite float64, every number of decimals", "why_tests_cant": "2^64 floats; rounding up to the next power of ten happens only for particular values", "anchors": ["commonxl/fmt.go:sprintfFunc", "commonxl/fmt.go:goFormatters", "commonxl/formats.go:makeFormatter"]}
{"id": "C91", "title": "Numbers in text are read as the nearest float64", "statement": "A decimal numeral (sign, digits, point, exponent of at most five digits) in a numeric cell of an xlsx sheet, in a field of a text file scanned into a float64, or in a text cell converted to a number gives the float64 nearest to the number written, ties to even; a number beyond the range of float64 is not turned into an infinity: it stays text, or the scan fails.", "quantifier": "every decimal numeral of every length", "why_tests_cant": "infinitely many numerals; reading goes wrong only for those close to the middle of two floats or at the ends of the range", "anchors": ["xlsx/sheets.go:parseSheet", "simple/simple.go:Scan", "commonxl/cell.go:NewCellWithType", "commonxl/fmt.go:convertToFloat64"]}
{"id": "C92", "title": "Short numbers are shown as they were typed", "statement": "A number that was typed as a decimal of at most eleven characters (twelve with a minus sign) without superfluous zeros is shown as exactly this text under the General format, though the float64 that is stored differs from it.", "quantifier": "every decimal of that length, every float64 nearest to one, integers of all sizes", "why_tests_cant": "about 10^12 decimals; a wrong last digit appears only for particular ones", "anchors": ["commonxl/fmt.go:identFunc", "xlsx/sheets.go:parseSheet", "commonxl/sheet.go:Strings"]}
{"id": "C93", "title": "Long numbers are rounded to the width of the General format", "statement": "A number that takes more than eleven characters is shown under the General format with at most eleven characters (twelve with a minus sign), as the nearest number that can be written with them.", "quantifier": "every finite float64", "why_tests_cant": "2^64 floats", "anchors": ["commonxl/fmt.go:identFunc"]}
{"id": "C94", "title": "Numbers as text keep their digits", "statement": "A number converted to text and back is the same number, and a number under the Text format (@) is shown with its digits, as it was typed.", "quantifier": "every finite float64", "why_tests_cant": "2^64 floats", "anchors": ["commonxl/cell.go:NewCellWithType", "commonxl/sheet.go:Put", "commonxl/fmt.go:identFunc"]}
{"id": "C95", "title": "The way the XML of a workbook is written does not matter", "statement": "A workbook whose parts are UTF-8 texts of the same elements, attributes and character data is read in the same way however these are written: single or double quotes, white space inside tags, namespace prefixes, references for characters, ends of lines, empty-element tags, comments, instructions, an XML declaration, CDATA sections, a byte order mark.", "quantifier": "every document within the limits of the sheet properties, every way to write each of its parts (names of ASCII letters)", "why_tests_cant": "unbounded freedom of writing; each program that writes workbooks uses another subset", "anchors": ["xlsx/xlsx.go:openXML", "xlsx/workbook.go:parseRels", "xlsx/workbook.go:parseWorkbook", "xlsx/workbook.go:parseStyles", "xlsx/workbook.go:parseSharedStrings", "xlsx/sheets.go:parseSheet"]}
{"id": "C96", "title": "Parts in UTF-16 are read", "statement": "A part encoded in UTF-16, which the packaging standard allows besides UTF-8, is read like the same part in UTF-8.", "quantifier": "every part in UTF-16", "why_tests_cant": "all texts", "anchors": ["xlsx/xlsx.go:openXML", "xlsx/xlsx.go:Open", "xlsx/sheets.go:parseSheet"]}
{"id": "C97", "title": "Shared strings are the text the user sees", "statement": "A shared string is the text of its text elements, in its runs or directly in it; pronunciation guides (phonetic runs) and white space between elements do not belong to it.", "quantifier": "every shared string part", "why_tests_cant": "all contents of string items", "anchors": ["xlsx/workbook.go:parseSharedStrings"]}
{"id": "C98", "title": "Escaped characters of strings are decoded", "statement": "Characters that XML cannot hold, which programs write as _xHHHH_ in strings, are shown as these characters.", "quantifier": "every string", "why_tests_cant": "all positions of escapes", "anchors": ["xlsx/workbook.go:parseSharedStrings", "xlsx/sheets.go:parseSheet"]}
{"id": "C99", "title": "The date system of an xlsx workbook is honoured", "statement": "Numbers with a date format are converted to dates with the date system (1900 or 1904) that the workbook part declares.", "quantifier": "every workbook, every serial number", "why_tests_cant": "all documents and serials", "anchors": ["xlsx/workbook.go:parseWorkbook", "xlsx/sheets.go:parseSheet", "commonxl/formats.go:Mode1904"]}
{"id": "C100", "title": "Cells without a reference follow the cell before them", "statement": "The reference of a cell element is optional: a cell without one stands in the column after the cell before it, or in the first column of its row.", "quantifier": "every worksheet", "why_tests_cant": "all arrangements of cells with and without references", "anchors": ["xlsx/sheets.go:parseSheet"]}
{"id": "C101", "title": "Workbooks open at the same time do not disturb each other", "statement": "However the loading, reading and closing of xls workbooks interleave, each open workbook has the records, sheets and errors that its file has when it is opened alone, also after others are closed, or closed twice, and their memory is used again.", "quantifier": "every number of workbooks, all files, every interleaving of loading, decrypting again, closing and garbage collection", "why_tests_cant": "all interleavings; a record given back twice shows only in rare schedules", "anchors": ["xls/xls.go:Close", "xls/xls.go:recPool", "xls/xls.go:nextRecord", "xls/xls.go:loadFromStream2"]}
{"id": "C102", "title": "A closed source can be asked without a crash", "statement": "After Close, List and Get return (an empty list, an error), for every source and every name; they do not crash.", "quantifier": "every source of every format, every name", "why_tests_cant": "all sources and names", "anchors": ["grate.go:Source", "xls/xls.go:Close", "xls/sheets.go:Get", "xlsx/xlsx.go:Close", "xlsx/xlsx.go:Get", "simple/simple.go:Close"]}
{"id": "C103", "title": "No file stays open after Close or a failed Open", "statement": "After a source was opened and closed, and after an Open that failed, no file that the library opened is open any more (without waiting for the garbage collector).", "quantifier": "every file, every outcome of opening", "why_tests_cant": "all files and outcomes; tests do not look at open files", "anchors": ["grate.go:Open", "xls/cfb/interface.go:Open", "xls/xls.go:Open", "xls/xls.go:Close", "xlsx/xlsx.go:Open", "xlsx/xlsx.go:Close", "simple/tsv.go:OpenTSV", "simple/csv.go:OpenCSV"]}
{"id": "C104", "title": "The slice that Strings returns belongs to the caller", "statement": "Assigning to elements of a slice returned by Strings does not change what the source returns later.", "quantifier": "every source, every row, every assignment", "why_tests_cant": "all rows; needs a look at memory that is shared", "anchors": ["simple/simple.go:Strings", "commonxl/sheet.go:Strings"]}
{"id": "C105", "title": "What a sheet takes in memory is in proportion to its file", "statement": "A sheet holds no more cells than its file has bytes.", "quantifier": "every file of every format", "why_tests_cant": "all files; the sizes that break it cannot be run", "anchors": ["xls/sheets.go:parseSheet", "commonxl/sheet.go:Resize", "simple/tsv.go:OpenTSV"]}
{"id": "C106", "title": "grate2tsv writes every visible sheet of a file", "statement": "With the default flags grate2tsv writes, for each visible sheet of a file that has a cell with text, one file with the displayed texts of the sheet: rows without text left out, white space tidied. It reports each sheet once, with the number of lines written and no error.", "quantifier": "every file of the supported formats that is well formed, all sheets and cell contents", "why_tests_cant": "all files, sheet counts and cell contents, through opening, sheet reading, formatting and writing", "anchors": ["cmd/grate2tsv/main.go:processFile", "commonxl/sheet.go:IsEmpty", "simple/simple.go:IsEmpty"]}
{"id": "C107", "title": "Every output of grate2tsv is in its report", "statement": "Each tsv file that grate2tsv writes has a line in the report with its sheet and the number of lines written, also if another output of the same file cannot be created.", "quantifier": "every file of the supported formats that is well formed, every set of outputs that cannot be created", "why_tests_cant": "failures of the file system at any point", "anchors": ["cmd/grate2tsv/main.go:processFile", "cmd/grate2tsv/main.go:runProcessor"]}
{"id": "C108", "title": "No file crashes Open", "statement": "Opening any file, with all formats registered, ends with a source or an error, and so does getting any of its collections; the program does not crash or hang.", "quantifier": "every file name, every contents of the file, every order of registration", "why_tests_cant": "hostile files: the bytes of a file are unbounded, and crashes depend on combinations of pointers and sizes", "anchors": ["grate.go:Open", "xls/xls.go:Open", "xls/cfb/cfb.go:load", "xlsx/xlsx.go:Open", "simple/tsv.go:OpenTSV", "simple/csv.go:OpenCSV"]}
{"id": "C109", "title": "A whole number shows the same however it is stored", "statement": "A cell with a whole number shows the same text whether the file stores the number as an integer or as a floating-point number, under every number format.", "quantifier": "every whole number, every built-in and custom number format", "why_tests_cant": "files store the same number in several ways depending on the program that wrote them; the formats and numbers are unbounded", "anchors": ["commonxl/sheet.go:Put", "commonxl/cell.go:NewCellWithType", "commonxl/formats.go:Apply", "commonxl/fmt.go:identFunc"]}
{"id": "C110", "title": "The same table reads the same from an xls and from an xlsx file", "statement": "If an xls and an xlsx file hold the same table (the same content and formats in the same cells, and the same size), Open, Get, Next and Strings give the same rows for both.", "quantifier": "every table, every way to store it in the two formats", "why_tests_cant": "relates two readers that share little code, for all tables and all encodings of them", "anchors": ["grate.go:Open", "xls/sheets.go:parseSheet", "xlsx/sheets.go:parseSheet", "commonxl/sheet.go:Put", "commonxl/cell.go:NewCellWithType"]}
{"id": "C111", "title": "What grate2tsv writes can be opened and exported again", "statement": "Every output that grate2tsv writes for a sheet opens with Open, its rows are exactly the rows that were written, and exporting it again writes the same bytes.", "quantifier": "every sheet of every source, every program with all formats", "why_tests_cant": "relates the writer, the detection of formats and the reader, for all tables", "anchors": ["cmd/grate2tsv/main.go:processFile", "grate.go:Open", "simple/tsv.go:OpenTSV"]}
{"id": "C112", "title": "The order of the parts in an xlsx file does not matter", "statement": "Two xlsx files with the same parts in another order open alike: they list the same sheets, and every program that gets sheets from them and uses them sees the same; or both fail with the same error.", "quantifier": "every archive whose entries have distinct names, every order of the entries, every sequence of Get calls and uses of what they return", "why_tests_cant": "the orders and the programs are unbounded", "anchors": ["xlsx/xlsx.go:Open", "xlsx/xlsx.go:openXML", "xlsx/xlsx.go:Get", "xlsx/sheets.go:parseSheet"]}
{"id": "C113", "title": "Formats are recognised by the contents of a file, not by its name", "statement": "For two files with the same contents Open gives the same workbook, or texts with the same rows, or the same error, whatever the names and extensions of the files.", "quantifier": "every contents, every two names, every order of registration of the formats", "why_tests_cant": "all contents and names; a test tries a few", "anchors": ["grate.go:Open", "xls/xls.go:Open", "xlsx/xlsx.go:Open", "simple/tsv.go:OpenTSV", "simple/csv.go:OpenCSV"]}
{"id": "C114", "title": "Parts of an xlsx file that are not part of the workbook do not matter", "statement": "Opening an xlsx file and reading it depends only on the relationships of the package and of the workbook, the workbook part, and the sheets, styles and shared strings that these relate to, with the relationships of the sheets. Any other entry of the archive (a theme, a picture, properties, a macro) can be added, removed, changed or unreadable, and every program sees the same.", "quantifier": "every archive, well formed or not, every set of other entries, every sequence of Get calls and uses of what they return", "why_tests_cant": "the other entries are arbitrary, in any number, with any contents", "anchors": ["xlsx/xlsx.go:Open", "xlsx/xlsx.go:openXML", "xlsx/xlsx.go:Get", "xlsx/workbook.go:parseRels", "xlsx/sheets.go:parseSheet"]}
{"id": "C115", "title": "Comments and the order of attributes in the XML of a workbook do not matter", "statement": "Two xlsx files whose parts differ only in comments, processing instructions and declarations between the elements and texts, and in the order of the attributes of elements, open alike: they list the same sheets, and every program that gets sheets from them sees the same; or both fail with the same error.", "quantifier": "every archive, well formed or not; every permutation of the attributes of every element, any number of comments and instructions anywhere but inside a text", "why_tests_cant": "the permutations and the places are unbounded", "anchors": ["xlsx/types.go:getAttrs", "xlsx/workbook.go:parseRels", "xlsx/workbook.go:parseWorkbook", "xlsx/workbook.go:parseStyles", "xlsx/workbook.go:parseSharedStrings", "xlsx/sheets.go:parseSheet"]}
{"id": "C116", "title": "Using some sheets does not change what the others give", "statement": "After a program has gotten some sheets of a workbook and used them in any way (read them partly, to the end, not at all, several times, or failed to get them), a program that gets other sheets sees exactly what it would have seen at first. For texts, which give their only collection for every name, the same holds for the names that List reports.", "quantifier": "every open workbook, in any state; every two programs that ask for disjoint sets of names; every use of the collections", "why_tests_cant": "the programs and their interleavings are unbounded", "anchors": ["xlsx/xlsx.go:Get", "xls/sheets.go:Get", "simple/simple.go:Get"]}
{"id": "C117", "title": "A changed or damaged sheet does not affect the other sheets of an xlsx file", "statement": "If two xlsx files have the same workbook, styles, shared strings and relationships, and the same parts for the sheets of some names, then they list the same sheets, and every program that gets only sheets with those names sees the same in both, whatever the parts of the other sheets are: missing, cut off, not XML, or with other content.", "quantifier": "every two archives, well formed or not; every set of names; every program that asks only for those", "why_tests_cant": "the archives, the damages and the programs are unbounded", "anchors": ["xlsx/xlsx.go:Open", "xlsx/xlsx.go:Get", "xlsx/workbook.go:parseRels", "xlsx/workbook.go:parseWorkbook", "xlsx/sheets.go:parseSheet"]}
{"id": "C118", "title": "The line endings of a text do not matter", "statement": "A text file with CR LF line endings opens with the same rows as the one with LF, and a text without a final newline with the same rows as the one with it; more generally, two texts that have the same lines, none of them too long, open alike.", "quantifier": "every text without CR whose lines have less than 65535 bytes (for CR LF), every text (for the final newline), every two texts with the same lines, any mixture of endings", "why_tests_cant": "the texts and the mixtures of endings are unbounded", "anchors": ["simple/tsv.go:OpenTSV"]}
{"id": "C119", "title": "Opening a file is deterministic", "statement": "Opening the same file again gives the same source or the same error: the result does not depend on the order in which Go ranges over maps, which differs from run to run.", "quantifier": "every file; every two orders of iteration of the maps of column counts and of relationships", "why_tests_cant": "the orders are chosen at random by the Go runtime and there are factorially many; a test sees a few of them", "anchors": ["xlsx/xlsx.go:Open", "simple/tsv.go:OpenTSV", "simple/csv.go:OpenCSV", "xls/xls.go:Open"]}
{"id": "C120", "title": "How an xls file is laid out does not matter", "statement": "Two compound files with the same Workbook stream open alike, whatever the sectors in which the stream is stored, their order, the other streams and entries of the file and what is in free sectors: the same document, the same error or the same crash. A file with such a stream is never read as another format.", "quantifier": "every two compound files with a Workbook stream of the same bytes, whether these are a workbook or not; every order of registration of the formats", "why_tests_cant": "the layouts of a stream are unbounded", "anchors": ["xls/cfb/interface.go:Open", "xls/cfb/cfb.go:load", "xls/cfb/cfb.go:getStreamReader", "xls/xls.go:Open", "xls/xls.go:loadFromStream", "grate.go:Open"]}
{"id": "C121", "title": "A changed or damaged sheet does not affect the other sheets of an xls file", "statement": "If two xls files have the same shared strings, number formats, cell styles and names of sheets, and the same records for the sheets of some names, then they list the same sheets, and every program that gets only sheets with those names sees the same in both, whatever the records of the other sheets are, wherever the sheets are stored, and whether the files are encrypted or not.", "quantifier": "every two xls files (plain or with the default password), every set of names, every program that asks only for those; sheets with any records that have the bytes they announce", "why_tests_cant": "the files, the damages and the programs are unbounded", "anchors": ["xls/xls.go:loadFromStream", "xls/xls.go:loadFromStream2", "xls/sheets.go:Get", "xls/sheets.go:parseSheet", "xls/sheets.go:List"]}
{"id": "C122", "title": "How the cells of a sheet are stored does not matter", "statement": "If two xls files or two xlsx files with the same number formats have a sheet of the same name and size with the same cells, every sequence of Next, Strings, Types, Formats, Scan and IsEmpty gives the same on both sheets: the order of the cells, the kinds of records or elements, the numbers of the shared strings and of the styles, earlier values of a cell that is written again, unused strings and styles, the names of the parts and encryption with the default password do not matter. If only the numbers of the number formats differ, Strings gives the same.", "quantifier": "every two files of the format, every sheet, every sequence of calls", "why_tests_cant": "the ways to store a table and the sequences of calls are unbounded", "anchors": ["xls/sheets.go:parseSheet", "xls/xls.go:loadFromStream2", "xlsx/sheets.go:parseSheet", "xlsx/workbook.go:parseSharedStrings", "xlsx/workbook.go:parseStyles", "commonxl/sheet.go:Strings", "commonxl/sheet.go:Types", "commonxl/sheet.go:Formats", "commonxl/sheet.go:Scan"]}
{"id": "C123", "title": "What grate2tsv writes for a file does not depend on the other files", "statement": "When grate2tsv exits, every output of every file on the command line is on the disk with exactly the bytes of its sheet, whatever the other files, the number of processors, the schedule and the files that existed before, and no other file has changed. At every moment before, an output on the disk is as it was or a first part of its bytes.", "quantifier": "every command line, every number of workers, every interleaving, every way in which the buffers are written out, every moment", "why_tests_cant": "the number of files and the interleavings are unbounded", "anchors": ["cmd/grate2tsv/main.go:main", "cmd/grate2tsv/main.go:runProcessor", "cmd/grate2tsv/main.go:processFile"]}
{"id": "C124", "title": "A cut-off xls file is never read as a different workbook", "statement": "If an xls file is cut off at any place, as by a broken transfer, Open either fails or gives the workbook of the whole file; it never gives a workbook with other sheets or cells.", "quantifier": "every compound document, every place where it is cut off, every registered set of formats", "why_tests_cant": "the files and the places are unbounded, and what is behind the end of the file in memory depends on the runtime", "anchors": ["xls/xls.go:Open", "xls/cfb/cfb.go:load", "xls/cfb/cfb.go:getStreamReader", "xls/cfb/cfb.go:getMiniStreamReader", "grate.go:Open"]}
{"id": "C125", "title": "A damaged part of an xlsx file is reported", "statement": "If one part of an xlsx file that the workbook, its styles, its shared strings or a sheet is in is missing, cannot be opened, fails while it is read (compression, checksum, XML syntax) or ends inside markup, the program is told: Open fails if the part is needed to open the file, else Get of the sheet fails, now and later, whatever else the program does with the source; a workbook or sheet with part of the data is never given without an error.", "quantifier": "every workbook, every part, every kind of damage, every program that uses the source, every registered set of formats", "why_tests_cant": "the workbooks, the places of the damage and the programs are unbounded", "anchors": ["xlsx/xlsx.go:Open", "xlsx/xlsx.go:openXML", "xlsx/xlsx.go:Get", "xlsx/workbook.go:parseRels", "xlsx/workbook.go:parseWorkbook", "xlsx/workbook.go:parseStyles", "xlsx/workbook.go:parseSharedStrings", "xlsx/sheets.go:parseSheet"]}
{"id": "C126", "title": "Hidden sheets are not listed", "statement": "List of a workbook names the visible sheets only, each as often as there are visible sheets of that name, in xls and in xlsx files.", "quantifier": "every workbook", "why_tests_cant": "the workbooks are unbounded", "anchors": ["xls/sheets.go:List", "xlsx/xlsx.go:List", "xlsx/workbook.go:parseWorkbook"]}
{"id": "C127", "title": "IsProtected tells encrypted workbooks", "statement": "IsProtected of an opened xls workbook is true if the workbook is encrypted and false if not.", "quantifier": "every workbook that opens", "why_tests_cant": "the workbooks are unbounded", "anchors": ["xls/xls.go:IsProtected"]}
{"id": "C128", "title": "Cells are values of their own", "statement": "No two cells of a sheet share memory, and Raw hands out copies: changing cells that Raw returned does not change the sheet, later calls on the sheet (Put, Set, SetURL, Resize) do not change them, and a program reads what it would read if every cell were a value.", "quantifier": "every sequence of calls on a sheet and of changes to cells it handed out, every growth policy of append", "why_tests_cant": "whether slices share an array depends on the whole history of appends and reslicings", "anchors": ["commonxl/cell.go:Clone", "commonxl/cell.go:SetURL", "commonxl/cell.go:SetFormatNumber", "commonxl/sheet.go:Raw", "commonxl/sheet.go:Put", "commonxl/sheet.go:Set"]}
{"id": "C129", "title": "Text read from a file is valid UTF-8", "statement": "The names of sheets, the texts and links of cells, what Scan stores into strings, the names of types and formats and what Strings gives are valid UTF-8, as programs that write JSON, XML or to a database need them, whatever the encoding of the text in the workbook; for text files, if the file is valid UTF-8.", "quantifier": "every xls, xlsx and text file that opens, every sheet, every row, every sequence of calls, every format of a cell", "why_tests_cant": "the files, texts and format codes are unbounded, and invalid text appears only for certain characters at certain places", "anchors": ["xls/sheets.go:parseSheet", "xls/hyperlinks.go:parseHyperlinkMoniker", "xls/strings.go:parseSST", "commonxl/fmt.go:addCommas", "xlsx/sheets.go:parseSheet", "simple/tsv.go:OpenTSV"]}
{"id": "C130", "title": "Links leave the cells of a sheet as they are", "statement": "A link in a sheet adds the link to the cells it covers and changes nothing else: URL gives the target of the link for these cells, their values and texts are those they have without the link, and all other cells are as without it.", "quantifier": "All sheets of xls and xlsx workbooks, with any cells and any links", "why_tests_cant": "Tests compare a few files; whether a link overwrites a value depends on the kind of the link, on the region it covers and on what is in the cells, and the loss is silent.", "anchors": ["xlsx/sheets.go: parseSheet", "xls/sheets.go: parseSheet", "commonxl/sheet.go: SetURL", "commonxl/cell.go: URL"]}
{"id": "C131", "title": "Archives that are not workbooks are answered with ErrUnknownFormat", "statement": "Open of a zip archive that is no workbook (an OpenDocument file, a document of a word processor or a presentation, a program archive, a plain zip file) fails with ErrUnknownFormat, as for other files that are in no format that is known.", "quantifier": "All zip archives without a workbook, programs with all formats in any order", "why_tests_cant": "Tests open a few archives; what happens depends on which parts an archive has, on the relationships in them, and on the bytes of the compressed file, which the text readers get to see.", "anchors": ["xlsx/xlsx.go: Open", "xlsx/workbook.go: parseRels", "xlsx/workbook.go: parseWorkbook", "grate.go: Open", "simple/tsv.go: OpenTSV"]}
{"id": "C132", "title": "Formulas are read by their results", "statement": "A cell of an xlsx sheet with a formula reads as the result that is stored with the formula: whatever a program reads from the sheets, it is the same with and without the formulas, in particular the text of a formula is never given as the value of a cell.", "quantifier": "All worksheets, all formulas and results, all documents, all programs that read the sheets", "why_tests_cant": "The reader does not distinguish the text of a formula from that of a value: it relies on the order of the two in the cell, so that what a test with one workbook shows depends on whether the results were stored.", "anchors": ["xlsx/sheets.go: parseSheet", "commonxl/sheet.go: Put"]}
{"id": "C133", "title": "Formats gives the format codes of the cells", "statement": "While a sheet of a workbook is read, Formats gives for each cell of the current row the code of the number format that the workbook gives to it, and General for cells without one.", "quantifier": "All sheets as the readers leave them (C49, C58), all rows, all cells, all number formats", "why_tests_cant": "The codes are in one table, the numbers of the formats in the cells, and the cells are written more than once by some records: whether the two meet for all cells of all sheets is not visible from single cells.", "anchors": ["commonxl/sheet.go: Formats, Put", "commonxl/cell.go: FormatNo, SetFormatNumber", "commonxl/formats.go: builtInFormats"]}
{"id": "C134", "title": "Scan gives the values that are stored in the file", "statement": "While a sheet of a workbook is read, Types names the types of the values stored for the cells of the current row (numbers, truth values, texts), and Scan into variables of the types that Types names gives the stored values unchanged.", "quantifier": "All sheets as the readers leave them, all rows, all cells and values, all destinations", "why_tests_cant": "The type of a cell is chosen by its number format and its value is converted to it; which conversions lose something depends on the value, the format and the type together.", "anchors": ["commonxl/sheet.go: Scan, Types, Put", "commonxl/cell.go: NewCellWithType"]}
{"id": "C135", "title": "The number formats that a workbook defines are the ones its cells are shown by", "statement": "If a workbook defines a number format, values with its number are shown, and cells with its number get the type, as a formatter to which only this format was added does it; other definitions in the workbook make no difference.", "quantifier": "All well-formed workbooks of both formats, all their definitions, all numbers and codes, all values", "why_tests_cant": "A format passes through records or style parts, tables of built-in formats and maps that earlier and later definitions share; tests have a few formats with numbers from 164 on.", "anchors": ["commonxl/formats.go: Add, Apply, getCellType", "xls/xls.go: loadFromStream", "xlsx/workbook.go: parseStyles"]}
{"id": "C136", "title": "grate2tsv: outputs on a full disk are first parts, and reported", "statement": "Whatever writes to an output of grate2tsv fail, the output holds a first part of the text of its sheet, at any moment; if it does not hold the whole text, the report has an error for the sheet.", "quantifier": "All sheets, all sizes of the write buffer, all sequences of failing writes and numbers of bytes they wrote before failing", "why_tests_cant": "Tests write to disks with room; a failing write can come at any byte and any number of times, and its error passes through a buffer that keeps it until a later call.", "anchors": ["cmd/grate2tsv/main.go: processFile, main, output"]}
{"id": "C137", "title": "The report of grate2tsv is a table of six columns", "statement": "After any number of runs of grate2tsv the report is a tab-separated table: the names of the columns once, then for each sheet and each file that could not be processed one row of six cells with the time, the names, the counts and the error, in the order of the runs; what was in the report before is kept, and the report opens as this table.", "quantifier": "All runs, all files, sheets, names, counts and errors, all executions of the goroutines, all former contents of the report", "why_tests_cant": "Names and messages come from outside, rows from concurrent workers, and the file is shared by runs; tests look at none of it.", "anchors": ["cmd/grate2tsv/main.go: main, runProcessor, stats", "simple/tsv.go: OpenTSV", "grate.go: Open"]}
{"id": "C138", "title": "The flags of grate2tsv do what their descriptions say", "statement": "For every setting of the flags: with -r tabs, newlines and runs of spaces in cells are condensed to one space, with -w white space at the ends of cells is removed, with -b blank rows are left out; what is written is exactly the table after that, and the report counts its rows. With -p nothing is written and the report is the same.", "quantifier": "All sixteen settings of the flags, all sheets, all cell texts, all files", "why_tests_cant": "Tests, if there were any, would try the defaults; the flags act on one variable in a loop that assigns to the row under one of them only.", "anchors": ["cmd/grate2tsv/main.go: processFile, removeNewlines, trimSpaces, skipBlanks, pretend"]}
{"id": "C139", "title": "Rows of every source can be scanned by their Types", "statement": "For the current row of any collection, Scan into variables of the types that Types names (blank and hyperlink being string types) succeeds and gives the values of the row, and Scan has the same outcome on a text and on a sheet with the same cells.", "quantifier": "All collections of text files and sheets, all rows, all values, all variables", "why_tests_cant": "The contract is written once, in the comments of an interface, and implemented twice; tests scan no rows of sheets and choose the types by hand.", "anchors": ["grate.go: Collection", "commonxl/sheet.go: Scan, Types", "simple/simple.go: Scan, Types", "commonxl/cell.go: Value, NewCell"]}
{"id": "C140", "title": "Documents are read from the bytes of any zip archive that has their parts", "statement": "A file that is a zip archive with the parts of a document opens and lists and gives what the parts say, however the archive is made: members stored or deflated, with or without data descriptors, in any order and place, with extra fields, comments, or other bytes before, between and after them. Two archives with the same members open as the same document, and a file without the end record of an archive is declined.", "quantifier": "All archives (not of the Zip64 extension), all members, all contents of fields that do not matter, all documents, all registrations of the formats", "why_tests_cant": "Every program that writes workbooks arranges archives in its own way; test files come from a few of them.", "anchors": ["xlsx/xlsx.go: Open, openXML"]}
{"id": "C141", "title": "Damaged parts of documents are noticed by their checksums", "statement": "If the data of a part are not those that its checksum in the archive belongs to, a document whose opening needs the part is not opened, and a sheet of the part is never given without an error.", "quantifier": "All archives, all parts, all damage that changes the checksum, all programs using the document before", "why_tests_cant": "Damage can be anywhere; tests read intact files.", "anchors": ["xlsx/xlsx.go: Open, openXML, Get", "xlsx/sheets.go: parseSheet"]}
{"id": "C142", "title": "A few damaged bytes of a document are always noticed", "statement": "If up to four consecutive bytes of a part of an xlsx file that is stored without compression are replaced, this never goes unnoticed: if Open reads the part, the file does not open as a document; if the part is a sheet, the document opens and Get gives an error for that sheet and never wrong cells.", "quantifier": "every zip archive of a document (any order of members, any bytes between them, with or without data descriptors), every stored member, every position in its data, every replacement of up to four consecutive bytes, every sequence of calls before Get", "why_tests_cant": "The number of archives, positions and replacements is without bound, and a test can only try some; that no replacement has the old checksum is a fact about all of them.", "anchors": ["xlsx/xlsx.go: Open, Document.openXML", "xlsx/sheets.go: Sheet.parseSheet", "xlsx/workbook.go: parseRels, parseWorkbook, parseStyles, parseSharedStrings"]}
{"id": "C143", "title": "The declared size of an xlsx sheet does not matter", "statement": "The dimension element of a worksheet is optional and only a hint. Whatever size it declares, and if it is missing, reading the sheet gives the same cells: the same values, types, formats, links and marks of merged regions, and the same texts in all rows, up to blank rows and columns at the ends.", "quantifier": "every worksheet (any cells, links and merged regions), every two dimension elements or none, every document", "why_tests_cant": "The worksheets and the sizes are unbounded, and files written by one program always declare the size in the same way.", "anchors": ["xlsx/sheets.go: Sheet.parseSheet (dimension, mergeCell)", "commonxl/sheet.go: Resize, Put, Next, Strings"]}
{"id": "C144", "title": "Truth values and error values are shown as such", "statement": "A cell with a truth value is shown as TRUE or FALSE, and a cell with an error value as the text of the error (#DIV/0!, #N/A, ...), as in a spreadsheet program, whatever number format the cell has.", "quantifier": "every cell with a truth value or an error value (stored or the result of a formula), every number format, every sheet it is in", "why_tests_cant": "The effect depends on the combination of the value with one of an unbounded number of formats; an error that is shown as a number looks like a correct result.", "anchors": ["commonxl/cell.go: NewCellWithType", "commonxl/sheet.go: Put, Strings", "xlsx/sheets.go: parseSheet", "xls/sheets.go: parseSheet"]}
{"id": "C145", "title": "The declared size of an xls sheet does not matter", "statement": "Whatever size the Dimensions record of a worksheet of an xls file declares, and if it is missing, reading the sheet gives the same cells: the same values, types, formats, texts of hyperlinks and marks of merged regions, and the same texts in all rows, up to blank rows and columns at the ends.", "quantifier": "every worksheet (any cells, formulas, hyperlinks, merged regions and embedded charts), every two Dimensions records or none, every workbook", "why_tests_cant": "The worksheets and the sizes are unbounded, and files written by one program always declare the size in the same way; only regions up to the last column show the difference.", "anchors": ["xls/sheets.go: parseSheet (Dimensions, HLink, MergeCells)", "commonxl/sheet.go: Resize, Put, Next, Strings"]}
{"id": "C146", "title": "Dates that are stored as texts are dates", "statement": "An xlsx file can store a date as text in the form of ISO 8601, in a cell of the type d. Such a cell is a date, as a cell with the number of the day is: Types says so, Scan into a time gives the day, and Strings shows it in its number format.", "quantifier": "every date, every number format for dates and times, every worksheet", "why_tests_cant": "The dates, formats and worksheets are unbounded, and common programs write dates as numbers, so that files with such cells are rarely among those of a test.", "anchors": ["xlsx/sheets.go: Sheet.parseSheet (DateCellType)", "commonxl/cell.go: NewCellWithType", "commonxl/dates.go: timeFmtFunc", "commonxl/sheet.go: Put, Scan, Strings"]}
{"id": "C147", "title": "Indentation of the parts of an xlsx file does not matter", "statement": "Two xlsx files whose parts differ only in line ends and spaces between their elements open alike: the same sheets, and the same answers to every program, including errors. Some programs write each element on a line of its own, others write everything on one line.", "quantifier": "every archive, every indentation of every part, every program that uses the result", "why_tests_cant": "The files and the places for white space are unbounded, and the files of a test come from programs that do not indent.", "anchors": ["xlsx/sheets.go: Sheet.parseSheet (CharData)", "xlsx/workbook.go: parseSharedStrings, parseRels, parseWorkbook, parseStyles", "xlsx/xlsx.go: Open"]}
{"id": "C148", "title": "Layout and settings in an xlsx file do not matter", "statement": "Two xlsx files that have the same relationships, sheet names, strings, number formats, cells, merged regions and links open alike, whatever else their parts say: column widths, row heights, views, filters, fonts, colours, print settings, extensions, and further attributes of any element.", "quantifier": "every archive, every other element (anywhere, also inside cells and strings), every other attribute, any text outside cells and strings, every program that uses the result", "why_tests_cant": "The elements and attributes of such files are an open set: programs and later versions of the format add their own. A test has only those of its files.", "anchors": ["xlsx/sheets.go: Sheet.parseSheet", "xlsx/workbook.go: parseRels, parseWorkbook, parseStyles, parseSharedStrings, getAttrs", "xlsx/xlsx.go: Open"]}
{"id": "C149", "title": "Layout records and charts in an xls sheet do not matter", "statement": "Two xls files that agree in strings, number formats, styles and sheet names, and whose sheets have the same cell, merge, link and size records, open alike, whatever other records the sheets have (column widths, row heights, windows, page setup, notes, filters) and whatever charts are embedded in them.", "quantifier": "every number, type and place of the other records (with their Continue records), every embedded object, any contents of the records that are the same, every program that asks for such sheets", "why_tests_cant": "The other record types are an open set, and each may be at any place among the cells. A test has only those of its files.", "anchors": ["xls/sheets.go: WorkBook.parseSheet", "xls/xls.go: WorkBook.loadFromStream2"]}
{"id": "C150", "title": "Renaming, moving or hiding sheets does not change their contents", "statement": "What Get gives for a sheet depends on the contents of the sheet and on the strings, styles and number formats of the workbook, not on the name of the sheet, its place among the sheets, whether it is visible, the name of its part (xlsx) or its position (xls).", "quantifier": "every two workbooks (xls or xlsx), every two names, any other sheets, any contents of the sheet, damaged ones included", "why_tests_cant": "Names and orders of sheets are arbitrary. A test that renames one sheet of one file says nothing about others.", "anchors": ["xls/sheets.go: WorkBook.Get, WorkBook.parseSheet", "xlsx/xlsx.go: Document.Get", "xlsx/workbook.go: parseWorkbook"]}
{"id": "C151", "title": "A byte order mark is not part of the first field of a text", "statement": "A tab separated text that begins with a byte order mark (UTF-8) is opened as it would be without the mark, and its rows are the same: the mark is not part of the first field.", "quantifier": "every text that is not empty and has no line beyond the scanner's limit, every order in which the map of column counts is iterated", "why_tests_cant": "The mark can precede any text. A test with one marked file says nothing about the decision whether other texts are taken as tab separated.", "anchors": ["simple/tsv.go: OpenTSV", "grate.go: Open"]}
{"id": "C152", "title": "The order of the lines of a text does not decide whether it is opened", "statement": "Whether a text is opened as tab separated depends on nothing but how many of its rows have how many fields: sorting or shuffling its lines, or changing the values in it, never makes a readable file unreadable. Shuffling the lines shuffles the rows in the same way and changes none of them.", "quantifier": "every two texts with fewer than 2^50 rows and no line beyond the scanner's limit, every reordering of the lines, every orders in which the maps of column counts are iterated", "why_tests_cant": "A file of n lines has n! orders, and the decision iterates over a Go map, whose order changes between runs.", "anchors": ["simple/tsv.go: OpenTSV", "grate.go: Open"]}
