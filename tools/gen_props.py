#!/usr/bin/env python3
"""Generates /verif/properties.jsonl (one property per line)."""
import json, os
P = []
def p(i, title, statement, quant, why, *anchors):
    P.append(dict(id=i, title=title, statement=statement, quantifier=quant,
                  why_tests_cant=why, anchors=list(anchors)))

# ---- registry -------------------------------------------------------------
p("C01", "Open dispatches by priority",
  "grate.Open(f) returns the outcome of a registered opener that does not answer ErrNotInFormat and whose priority number is minimal among all such openers; openers of strictly smaller priority number have all answered ErrNotInFormat.",
  "every finite sequence of Register calls (any names, priorities, ties, any order), every behaviour of the openers on the file",
  "tests only ever see the four shipped formats registered in one link order; the claim ranges over all registration histories and all (possibly unstable) sort outcomes",
  "grate.go:Open", "grate.go:Register")
p("C02", "Open consults each opener at most once and reports ErrUnknownFormat exactly when all decline",
  "Open calls openers in non-decreasing priority order, never calls an opener after the first decisive one, calls none twice, and returns ErrUnknownFormat iff every registered opener answered an error recognised as ErrNotInFormat.",
  "every registration history and opener behaviour",
  "needs all subsets of declining/erroring openers and all registration orders",
  "grate.go:Open", "errs.go:ErrUnknownFormat")
p("C03", "Wrapped not-in-format errors are recognised",
  "For every error e, errors.Is(WrapErr(e, ErrNotInFormat), ErrNotInFormat) holds, WrapErr(e) is e itself, the message shown is that of the first error, and the recognition survives arbitrary re-wrapping in second position.",
  "every error value and every wrapping depth",
  "wrapping depth and content are unbounded",
  "errs.go:WrapErr", "errs.go:errx")
# ---- delimited text -------------------------------------------------------
p("C04", "TSV round trip",
  "If a table of rows of cells is written with tab separators and newline terminators (cells free of tab, CR and LF, every line shorter than 64KiB) and the file is accepted, iterating the source yields exactly these rows, in order, cell for cell.",
  "every table of any number of rows/columns and any cell bytes satisfying the side conditions",
  "unbounded tables and byte contents",
  "simple/tsv.go:OpenTSV", "simple/simple.go:simpleFile.Strings")
p("C05", "TSV opening loses no data",
  "For every file content, either OpenTSV fails because a line is too long, or the rows delivered are the lines of the file split at tabs: re-joining the fields with tabs gives back each line without its terminator.",
  "every byte string",
  "all byte strings, including missing final newline, CRLF, empty file, empty lines",
  "simple/tsv.go:OpenTSV")
p("C06", "Delimited-text detection is deterministic",
  "The accept / ErrNotInFormat verdict of the delimited-text openers does not depend on map iteration order, and equals the documented rule (declined iff some width>=2 occurs more than 25 times and no width>=2 has both more than 10 rows and more than 80% of the rows).",
  "every file of fewer than 2^50 rows and every iteration order of the column-count map",
  "Go randomises map order per run; a test samples one order",
  "simple/tsv.go:OpenTSV", "simple/csv.go:OpenCSV")
p("C07", "CSV files open and deliver their records",
  "For every file the CSV reader can parse to the end without error, opening it as CSV succeeds (unless it is declined by the detection rule) and iterating delivers the parsed records in order.",
  "every sequence of records produced by the CSV reader and its terminating condition",
  "all files; the existing tests never open a CSV through OpenCSV",
  "simple/csv.go:OpenCSV")
p("C08", "Text source cursor protocol",
  "After opening a text source with n rows, Next returns true exactly n times and then false forever; after the k-th true, Strings is the k-th row and Types and Formats have the same length as Strings, with type 'blank' exactly at empty cells and 'string' elsewhere.",
  "every row list and every number of Next calls",
  "unbounded rows and call histories",
  "simple/simple.go:Next", "simple/simple.go:Strings", "simple/simple.go:Types", "simple/simple.go:Formats")
p("C09", "Text source Scan contract",
  "Scan with a number of destinations different from the row width fails without writing any destination; otherwise destinations are filled left to right, each from its own column, and the first failing conversion stops the scan with all later destinations untouched; an *int destination receives exactly the decimal value of the cell whenever that value fits 64 bits.",
  "every row, every destination list",
  "unbounded widths, all cell contents",
  "simple/simple.go:Scan")
# ---- sheets ---------------------------------------------------------------
p("C10", "Sheet: last write wins, all else is preserved",
  "After any sequence of cell writes and resizes on a sheet, reading cell (r,c) gives the cell built by the last write addressed to (r,c), and a blank cell if there was none: no write or resize ever loses or moves another cell.",
  "every sequence of Put and Resize calls with non-negative coordinates",
  "all interleavings of growth, shrink and writes",
  "commonxl/sheet.go:Put", "commonxl/sheet.go:Resize")
p("C11", "Sheet writes never crash",
  "Put at any non-negative coordinates of a supported value, in any state reachable by Put and Resize, completes without panicking, whatever the declared dimensions were.",
  "every reachable sheet state, coordinate and value",
  "out-of-declared-bounds writes in arbitrary histories",
  "commonxl/sheet.go:Put", "commonxl/sheet.go:Resize")
p("C12", "Rows are rectangular and aligned",
  "For every sheet built by Put (and resizes that never shrink), Strings, Types, Formats and Raw of every row have exactly NumCols entries and entry i describes the same cell i in all of them; none of them panics because of the row shape.",
  "every reachable sheet of growing dimensions, every row",
  "all histories and rows",
  "commonxl/sheet.go:Strings", "commonxl/sheet.go:Types", "commonxl/sheet.go:Formats", "commonxl/sheet.go:Raw")
p("C13", "Sheet cursor protocol",
  "Starting from a freshly built sheet, Next/Strings visits every stored row exactly once, in order, then Next returns false forever and the cursor stays on the last row; every row holding a written cell is visited.",
  "every sheet and number of Next calls",
  "unbounded rows and histories",
  "commonxl/sheet.go:Next")
p("C14", "Reported types agree with the stored values",
  "For every value stored by Put, the type reported by Types is truthful: 'boolean', 'integer', 'float', 'string' cells hold a bool, int64, float64, string respectively, so that Scan into the matching pointer succeeds; 'date' cells hold a time.",
  "every supported value and every format number, builtin or custom",
  "all value/format combinations",
  "commonxl/cell.go:NewCellWithType", "commonxl/sheet.go:Put", "commonxl/sheet.go:Scan")
p("C15", "Sheet Scan is type-safe and sequential",
  "Scan never converts: destination i is written iff column i holds exactly that Go type and no earlier destination failed; on the first mismatch an error is returned and later destinations are untouched; unsupported destinations are reported as ErrInvalidScanType.",
  "every row and destination list",
  "all rows and destination lists",
  "commonxl/sheet.go:Scan", "errs.go:ErrInvalidScanType")
p("C16", "Merge markers come back verbatim",
  "Writing one of the four merge markers to a cell makes Strings return exactly that marker for the cell and Types report 'static', for every format number given; any other text written with format 0 comes back as itself.",
  "every marker, every string, every format number, every sheet",
  "all strings and formats",
  "commonxl/sheet.go:Put", "commonxl/sheet.go:Strings", "grate.go:ContinueColumnMerged")
p("C17", "IsEmpty reports exactly the sheets without data",
  "IsEmpty returns true only for sheets with no data values, and false for every sheet that holds a value.",
  "every reachable sheet",
  "all histories",
  "commonxl/sheet.go:IsEmpty")
p("C18", "Editing an in-range cell is safe",
  "Set and SetURL on coordinates outside the sheet are ignored without crashing, and on an existing written cell change only that cell.",
  "every sheet and coordinates",
  "boundary coordinates of every sheet size",
  "commonxl/sheet.go:Set", "commonxl/sheet.go:SetURL")
# ---- cells ----------------------------------------------------------------
p("C19", "Integers are stored exactly",
  "NewCell of any Go integer value (int..int64, uint8..uint64, uint) stores the same mathematical integer when it fits in int64 and never stores a wrong integer.",
  "every value of every integer type",
  "2^64 values per type",
  "commonxl/cell.go:NewCell")
p("C20", "Type coercion yields the requested type",
  "NewCellWithType(v, t) has type t for every bool, integer, float and non-empty string v and every requested type among boolean, integer, float, string, date, and the coercions are the expected ones (bool<->0/1, truncation, decimal parsing).",
  "every value and requested type",
  "all values",
  "commonxl/cell.go:NewCellWithType")
p("C21", "Cell order is a strict order on like-typed cells",
  "On cells holding values of one type, Less is irreflexive, asymmetric and transitive and Equal is exactly equality of the values.",
  "every pair/triple of cells holding bool, int64, float64 or string values of one kind",
  "all value triples",
  "commonxl/cell.go:Less", "commonxl/cell.go:Equal")
p("C22", "Cell equality is an equivalence",
  "Equal is reflexive and symmetric on all non-blank cells and never panics.",
  "every pair of cells, mixed types included",
  "all mixed-type pairs",
  "commonxl/cell.go:Equal")
# ---- formatter ------------------------------------------------------------
p("C23", "Built-in formats cannot be altered",
  "No sequence of Add calls changes what Apply does for a built-in format number.",
  "every sequence of Add calls (any id, any code), every value",
  "all histories",
  "commonxl/formats.go:Add", "commonxl/formats.go:Apply")
p("C24", "The first definition of a custom format wins",
  "Once a custom format number has been defined, later Add calls with a different code other than 'general' are rejected with an error and leave its rendering and cell type unchanged; Add never affects another format number.",
  "every sequence of Add calls",
  "all histories",
  "commonxl/formats.go:Add")
p("C25", "Unknown formats are reported, not fatal",
  "Apply and Get with an undefined format number return ok=false and fall back to a plain rendering.",
  "every format number and formatter state",
  "65536 ids x all histories",
  "commonxl/formats.go:Apply", "commonxl/formats.go:Get")
p("C26", "Thousands separators never change the number",
  "For every 64-bit integer the '#,##0' rendering is its decimal numeral with commas exactly between groups of three digits counted from the right: deleting the commas gives back the plain numeral, the first group has 1-3 digits and every later group exactly 3.",
  "every 64-bit integer",
  "2^64 values; the test samples powers of ten",
  "commonxl/fmt.go:addCommas", "commonxl/fmt.go:goFormatters")
p("C27", "Negative numbers in parentheses",
  "For formats 37 and 38 a negative integer n renders as '(' + commas(|n|) + ')' without a minus sign and a non-negative one renders as in format 3.",
  "every 64-bit integer",
  "2^64 values",
  "commonxl/fmt.go:addNegParens")
p("C28", "Format sections are selected by sign",
  "A format with sections pos;neg;zero;text applies exactly the section matching the sign of the numeric value (missing sections falling back to the positive one, text to plain), for every number of sections.",
  "every value, every list of sections",
  "all section lists and values",
  "commonxl/fmt.go:switchFmtFunc")
p("C29", "Built-in format tables agree",
  "The three built-in tables (codes, cell types, renderers) define exactly the same format numbers (0 has no type) and exactly the date-typed numbers have date renderers.",
  "every 16-bit format number",
  "the whole table and its complement in 65536 ids",
  "commonxl/formats.go:builtInFormats", "commonxl/formats.go:builtInFormatTypes", "commonxl/fmt.go:goFormatters")
p("C30", "Percent formats show hundredfold values",
  "Formats 9 and 67 applied to the same numeric value give the same text whether the value is held as an integer or as a float, namely the value times 100 followed by '%'.",
  "every numeric value",
  "all values and representations",
  "commonxl/fmt.go:sprintfFunc")
p("C31", "Date serials convert to the right day",
  "ConvertToDate of an integral serial n is the civil date n days after 1899-12-30 (1900 mode) or 1904-01-01 (1904 mode); consecutive serials are consecutive days across the boundary between the two conversion methods.",
  "every integral serial between -2483588 and 2^46 (outside, 64-bit day and second counts overflow)",
  "all days, both modes",
  "commonxl/dates.go:ConvertToDate")
p("C32", "Fraction rendering respects the digit limits",
  "DecimalToFraction(v, nn, nd) terminates and returns a denominator >= 1 with at most nn digits in the numerator and nd digits in the denominator, for v in (0,1); the numerator is the one nearest to v for that denominator. A fraction format shows the whole part and that fraction.",
  "every v in (0,1), every nn, nd >= 1",
  "all values",
  "commonxl/numbers.go:DecimalToFraction", "commonxl/numbers.go:DecimalToWholeFraction")
# ---- compound file --------------------------------------------------------
p("C33", "Stream reads deliver the concatenation",
  "Reading a stream assembled from sector slices with any sequence of buffer sizes delivers the bytes of the concatenation in order, without loss, duplication or reordering, and reports EOF exactly after the last byte.",
  "every list of non-empty slices, every sequence of read sizes",
  "all slice layouts and read schedules",
  "xls/cfb/slicereader.go:Read")
p("C34", "Seek positions exactly",
  "After Seek to a valid position p (from start, current or end), the reported position is p and subsequent reads deliver the stream from byte p; invalid positions are reported as errors, never crashes.",
  "every slice layout, current position, offset and whence",
  "all layouts and positions",
  "xls/cfb/slicereader.go:Seek")
p("C35", "Stream extraction follows the sector chain",
  "For every compound document whose allocation table holds the chain of a stream, opening the stream yields exactly the first 'size' bytes of the chained sectors, in chain order.",
  "every document, chain (any length, any sector order) and size",
  "all layouts",
  "xls/cfb/cfb.go:getStreamReader", "xls/cfb/interface.go:Open")
p("C36", "Small stream extraction follows the mini chain",
  "Same for streams below the 4096-byte cutoff: the bytes are those of the chained 64-byte mini sectors of the root stream.",
  "every document, mini chain and size",
  "all layouts",
  "xls/cfb/cfb.go:getMiniStreamReader")
p("C37", "Opening a compound document always terminates",
  "Loading any byte string as a compound document terminates with a document or an error.",
  "every byte string",
  "hostile cyclic tables",
  "xls/cfb/cfb.go:load")
p("C38", "Non compound files are declined",
  "Any file that does not start with the compound-document signature is answered with ErrNotInFormat so that other formats are tried.",
  "every byte string",
  "all byte strings",
  "xls/cfb/cfb.go:load", "xls/xls.go:Open")
p("C39", "All streams of the document are found",
  "Every stream present in the directory can be listed and opened by name.",
  "every document directory",
  "all directory sizes and orders",
  "xls/cfb/cfb.go:buildDirs", "xls/cfb/interface.go:List", "xls/cfb/interface.go:Open")
# ---- decryption -----------------------------------------------------------
p("C40", "Decryption is independent of write chunking",
  "The decrypted bytes depend only on the concatenation of the written bytes, not on how they were split into Write calls: byte k of the output is byte k of the input XOR the keystream of block k/1024 at offset k%1024.",
  "every sequence of Write calls, every keystream",
  "all chunkings and lengths around 1024-byte block boundaries",
  "xls/crypto/rc4.go:Write", "xls/crypto/rc4.go:Flush")
p("C41", "Decrypting an encrypted workbook stream restores it",
  "For every record stream encrypted per MS-XLS (headers, exempt records and sheet positions in clear, everything else XOR the block keystream) the decryption pass hands exactly the original record stream to the parser.",
  "every record list, every key",
  "all streams and alignments of records relative to the 1024-byte blocks",
  "xls/xls.go:loadFromStreamWithDecryptor", "xls/crypto/rc4.go")
p("C42", "Password verification accepts exactly the matching verifier",
  "An encrypted workbook is opened iff its verifier decrypts, under the default password and its salt, to a value whose hash equals the decrypted verifier hash.",
  "every header",
  "all salts/verifiers",
  "xls/crypto/rc4.go:Verify", "xls/crypto/crypto.go:NewBasicRC4")
# ---- BIFF -----------------------------------------------------------------
p("C43", "Record framing round trip",
  "Splitting a workbook stream into records is the inverse of writing them: any list of records serialised one after another is read back as the same list of (type, data); a truncated last record is reported as an error, never silently dropped or misread.",
  "every record list, every truncation point",
  "all record lists and truncations",
  "xls/xls.go:nextRecord", "xls/xls.go:loadFromStream2")
p("C44", "Substream grouping loses no record",
  "Every record of the stream ends up in exactly one substream, in order; each well-formed substream (begin-of-file ... end-of-file, nested blocks included) forms its own group and the stream position of each group's first record leads to that group.",
  "every well-formed sequence of substreams",
  "all nestings and lengths",
  "xls/xls.go:loadFromStream2")
p("C45", "Sheet listing is faithful",
  "List and ListHidden together name every sheet of the workbook exactly once, in file order, split by visibility; Get finds every listed name (visible or hidden) and fails with an error for any other name.",
  "every list of sheet entries and every name",
  "all lists and visibility bytes",
  "xls/sheets.go:List", "xls/sheets.go:ListHidden", "xls/sheets.go:Get")
p("C46", "Shared strings survive any record split",
  "For every list of strings, each stored 8-bit or 16-bit, with or without rich-text runs and phonetic data, and every legal way of splitting the table over continuation records (switching the character width at the split), the parsed table is the original list.",
  "every string list, encoding choice and split",
  "all splits x encodings",
  "xls/strings.go:parseSST")
p("C47", "Short and long sheet strings decode exactly",
  "decode(encode(s)) = s for names and format codes stored 8-bit or 16-bit, and the reported consumed length is the encoded length.",
  "every string up to 255 / 65535 code units",
  "all strings",
  "xls/strings.go:decodeShortXLUnicodeString", "xls/strings.go:decodeXLUnicodeString")
p("C48", "Compressed numbers decode exactly",
  "Every 32-bit compressed (RK) number decodes to the value defined by the file format: the 30-bit integer, the 30-bit integer divided by 100, the truncated double, or that double divided by 100.",
  "every 32-bit pattern",
  "2^32 patterns",
  "xls/structs.go:RKNumber.Int", "xls/structs.go:RKNumber.Float64", "xls/structs.go:RKNumber.IsInteger")
p("C49", "Cell records land in their cell",
  "Each number, multi-number, boolean, error, shared-string and formula record of a worksheet sets the cell at the row and column stored in the record to the stored value, with the number format selected by its style index.",
  "every well-formed record and workbook state",
  "all records",
  "xls/sheets.go:parseSheet")
p("C50", "Merged regions are marked consistently (xls)",
  "For a merge region the top-left cell keeps its value, the rest of the first column is marked as row continuation with the stop marker in the last row, and the other cells as column continuation with the stop marker in the last column; no cell outside the region changes.",
  "every region and every sheet",
  "all regions",
  "xls/sheets.go:parseSheet")
p("C51", "Embedded objects do not leak into the sheet",
  "Records inside embedded begin/end blocks (charts) never affect the cells of the surrounding sheet.",
  "every sheet record list with nested blocks",
  "all nestings",
  "xls/sheets.go:parseSheet")
p("C52", "Hyperlink records decode to their text and target",
  "For every well-formed hyperlink record with optional display name, frame name, moniker string and location, the decoded display text and link are the stored ones (trimmed).",
  "every combination of optional parts and strings",
  "all combinations",
  "xls/hyperlinks.go:decodeHyperlinks")
p("C53", "Malformed xls input is reported, not fatal",
  "No byte string makes opening a workbook crash; malformed input gives an error.",
  "every byte string",
  "all inputs",
  "xls/xls.go:loadFromStream2", "xls/sheets.go:parseSheet", "xls/cfb/cfb.go")
p("C54", "The 1904 date setting of the workbook is honoured",
  "If the workbook declares the 1904 date system its date cells are converted with the 1904 epoch.",
  "every workbook",
  "all workbooks",
  "xls/xls.go:loadFromStream2", "commonxl/formats.go:Mode1904")
# ---- xlsx -----------------------------------------------------------------
p("C55", "A1 references are decoded exactly",
  "For every column index c and row index r, the reference written as column letters followed by the 1-based row number decodes to (c, r); distinct cells have distinct references.",
  "every column and row index within int64",
  "all columns and rows",
  "xlsx/types.go:refToIndexes", "xlsx/types.go:col2int")
p("C56", "Shared string table order is preserved (xlsx)",
  "The i-th string item of the shared string part, being the concatenation of all its text, is what a cell with shared-string index i shows.",
  "every token stream of string items",
  "all part contents",
  "xlsx/workbook.go:parseSharedStrings", "xlsx/sheets.go:parseSheet")
p("C57", "Cell styles select their number format (xlsx)",
  "Cell style k uses the number format of the k-th cell xf entry unless that entry disables number formats, in which case it is General.",
  "every style part",
  "all parts",
  "xlsx/workbook.go:parseStyles")
p("C58", "Worksheet cells land at their reference (xlsx)",
  "For every worksheet part made of cells with distinct A1 references and one value each, the resulting sheet holds at every referenced position the value written there (number, boolean, text, shared string) and blanks elsewhere.",
  "every list of cells",
  "all worksheets",
  "xlsx/sheets.go:parseSheet")
p("C59", "Merged regions are marked consistently (xlsx)",
  "xlsx merge regions inside the sheet dimension are marked by the same rule as xls ones.",
  "every region within the dimension",
  "all regions",
  "xlsx/sheets.go:parseSheet")
p("C60", "Get is idempotent up to the cursor (xlsx)",
  "Getting the same worksheet again returns the same collection without re-reading the file, and sheets are found by exactly the names List reports, first match first; unknown names give an error.",
  "every document and Get history",
  "all histories",
  "xlsx/xlsx.go:Get", "xlsx/xlsx.go:List")
p("C61", "Workbook parts are resolved through relationships",
  "Every sheet declared in the workbook part is listed once, in order, with its name, and reads the part its relationship id points to, absolute and relative targets alike.",
  "every relationship and workbook part",
  "all parts",
  "xlsx/workbook.go:parseWorkbook", "xlsx/workbook.go:parseRels")
p("C62", "Malformed xlsx input is reported, not fatal",
  "No worksheet, style or relationship part content makes opening or reading crash.",
  "every token stream",
  "all inputs",
  "xlsx/sheets.go:parseSheet", "xlsx/workbook.go:parseStyles", "xlsx/types.go:refToIndexes")
# ---- command --------------------------------------------------------------
p("C63", "grate2tsv logs every file exactly once",
  "In every schedule of the workers, when grate2tsv exits each command-line file has been processed exactly once and its log lines appear contiguously, not interleaved with those of another file.",
  "every number of files and workers (>= 1), every interleaving",
  "schedules",
  "cmd/grate2tsv/main.go:main", "cmd/grate2tsv/main.go:runProcessor")
p("C64", "grate2tsv flushes every output before exiting and never deadlocks",
  "Every output file handed to the cleanup goroutine is flushed and closed exactly once before exit and no reachable state is stuck, on every machine.",
  "every interleaving, every number of CPUs",
  "schedules",
  "cmd/grate2tsv/main.go:main")
p("C65", "grate2tsv output is a valid TSV of the sheet",
  "With default flags the written file, read back as TSV, is exactly the non-blank rows of the sheet with whitespace normalised: one line per kept row, one field per column, no embedded tab or newline.",
  "every sheet content",
  "all cell contents",
  "cmd/grate2tsv/main.go:processFile")
p("C66", "UTF-16 text is decoded faithfully",
  "For every sequence of Unicode scalar values, decoding its UTF-16 form gives the UTF-8 string of the same scalars; unpaired surrogates become U+FFFD and never swallow neighbours.",
  "every scalar sequence / every uint16 sequence",
  "all sequences",
  "xls/strings.go", "commonxl/cell.go:NewCell")
p("C67", "Encrypted workbooks load like plain ones",
  "A workbook encrypted with the default password opens with the same sheets, shared strings, formats, styles and records as its plaintext; one whose header does not match that password, or that uses another kind of encryption, is refused with an error.",
  "every workbook stream, every position of the encryption header, every key",
  "all workbooks and keys",
  "xls/xls.go:loadFromStream2", "xls/xls.go:loadFromStreamWithDecryptor", "xls/crypto/crypto.go:NewBasicRC4")

p("C68", "grate2tsv never overwrites one output with another",
  "Different sheets, of one file or of different files on the command line, get different output paths.",
  "every pair of file names and sheet names",
  "all names",
  "cmd/grate2tsv/main.go:processFile")
p("C69", "grate2tsv reports the size of what it writes",
  "For every sheet the statistics give the number of rows written to its output and the number of columns in use.",
  "every sheet content",
  "all sheets",
  "cmd/grate2tsv/main.go:processFile")

p("C70", "Custom number formats show what their code says",
  "A number format defined by the workbook with optional text, thousands separators, decimals and a percent sign shows every number with that text around it, its digits grouped and with that many decimals, and the cell gets the matching type.",
  "every such code, every number",
  "all codes and numbers",
  "commonxl/formats.go:makeFormatter", "commonxl/formats.go:Add", "commonxl/fmt.go:addCommas")
p("C71", "Custom date formats show the fields of their code",
  "A date format defined by the workbook shows the fields named in its code, in their order and with the separators between them, and makes the cell a date.",
  "every code made of date fields and separators, every date",
  "all codes and dates",
  "commonxl/formats.go:makeFormatter", "commonxl/dates.go:timeFmtFunc")
p("C72", "Sections of a custom format are independent",
  "A custom format of several sections shows each value as the section for its sign would show it on its own; marks in brackets such as colours change nothing.",
  "every list of sections, every value",
  "all codes",
  "commonxl/formats.go:makeFormatter", "commonxl/fmt.go:switchFmtFunc")
p("C73", "Built-in date formats show the fields of their code",
  "Every built-in date format shows the fields of the code documented for its number, in the same order.",
  "every built-in format number",
  "whole table",
  "commonxl/formats.go:builtInFormats", "commonxl/fmt.go:goFormatters")

p("C74", "Text cells show their text whatever the number format",
  "A text written into a cell under any number format is shown as that text: formats for numbers and dates do not apply to text.",
  "every text, every format number",
  "all texts and formats",
  "commonxl/cell.go:NewCellWithType", "commonxl/sheet.go:Put", "commonxl/sheet.go:Strings")
p("C75", "Text results of formulas are shown as they are",
  "A formula cell whose cached result is text shows that text, whatever the number format of the cell.",
  "every text, every format number",
  "all texts and formats",
  "xls/sheets.go:parseSheet", "commonxl/sheet.go:Set", "commonxl/fmt.go:addCommas")
p("C76", "Showing a row never crashes",
  "Applying a format that is built in or defined by the workbook to any value gives a text, and Strings completes on every row of every sheet whose cells carry such formats.",
  "every formatter, every value, every history of writes, every workbook sheet, every cursor position",
  "all formatters, values and sheets",
  "commonxl/formats.go:Apply", "commonxl/fmt.go", "commonxl/sheet.go:Strings")

p("C77", "Opening an xls file gives its sheets",
  "grate.Open on a compound document with a workbook stream in it gives a source whose List names its visible sheets in order, and whose Get gives the cells that the records of the sheet write, with the formats of the workbook; an unknown name gives an error.",
  "every file, every workbook, every table of registered formats that holds the shipped ones",
  "all files and workbooks",
  "grate.go:Open", "xls/xls.go:Open", "xls/cfb/cfb.go:Open", "xls/sheets.go:Get")
p("C78", "Opening an xlsx file gives its sheets",
  "grate.Open on an Office Open XML archive gives a source whose List names its sheets in order, and whose Get gives the cells that the elements of the sheet write, with the formats of the workbook; an unknown name gives an error.",
  "every archive, every table of registered formats that holds the shipped ones",
  "all archives",
  "grate.go:Open", "xlsx/xlsx.go:Open", "xlsx/xlsx.go:Get")
p("C79", "Opening a tab separated text gives its lines",
  "grate.Open on a file that is no workbook, has no line of 64 KiB or more and does not mix line widths, gives a source that lists the base name of the file and whose rows are its lines split at tabs.",
  "every such file",
  "all files",
  "grate.go:Open", "simple/tsv.go:OpenTSV")
p("C80", "Opening a comma separated text gives its fields",
  "grate.Open on a file of comma separated fields gives a source whose rows are these fields.",
  "every table of plain fields",
  "all tables",
  "grate.go:Open", "simple/csv.go:OpenCSV", "simple/tsv.go:OpenTSV")
p("C81", "Unsupported files are reported as unknown",
  "grate.Open returns ErrUnknownFormat for a file that is in none of the supported formats, such as an image or a compound document of another program.",
  "every file",
  "all files",
  "grate.go:Open", "simple/tsv.go:OpenTSV", "simple/csv.go:OpenCSV")
p("C82", "grater prints every row of every sheet",
  "The command grater writes, for each file in order, each sheet in order, one line per row with the displayed texts separated by tabs; a file that cannot be opened gives one line on standard error and does not stop the others.",
  "every list of files, all supported formats",
  "all files and sheets",
  "cmd/grater/main.go:main")
p("C83", "The reason why a file cannot be read is reported",
  "If a file cannot be opened or read at all, grate.Open returns the error of the system, not that the format is unknown.",
  "every file name, every error",
  "all errors",
  "grate.go:Open", "errs.go:WrapErr")
p("C84", "Reading a sheet gives exactly its rows",
  "The loop over the rows of a sheet gives as many rows, each of as many columns, as the sheet declares, or more only if it has cells beyond that.",
  "every sheet of every xls and xlsx file",
  "all sheets",
  "commonxl/sheet.go:Resize", "commonxl/sheet.go:Next", "commonxl/sheet.go:Put")
p("C85", "Getting a sheet again reads it again",
  "A sheet that has been read, partly or to its end, can be read again from its first row by asking the source for it again.",
  "every source of every format, every sheet, every number of rows read",
  "all histories",
  "grate.go:Source", "xls/sheets.go:Get", "xlsx/xlsx.go:Get", "simple/simple.go:Get")

p("C86", "Dates are shown as the format code says",
  "A date or time shown under a date format is the text its format code describes: each field of the code (year, month, day, hour, minute, second, in the number of letters given) is replaced by the corresponding part of the moment, and all other text is copied.",
  "every built-in and custom date format, every moment up to the year 9999, both date systems",
  "the product of formats and moments is too large to sample; wrong months, names or paddings appear only at particular dates",
  "commonxl/dates.go:timeFmtFunc", "commonxl/fmt.go:goFormatters", "commonxl/formats.go:makeFormatter", "commonxl/dates.go:ConvertToDate")
p("C87", "Times of the day are right to the second",
  "A serial number that stands for a day and a time in whole seconds (the float64 nearest to it) is shown as exactly that time.",
  "every day from 1900 to 9999, each of the 86400 seconds of the day, both date systems",
  "hundreds of billions of serials; the error depends on the direction in which each was rounded",
  "commonxl/dates.go:ConvertToDate", "commonxl/dates.go:timeFmtFunc")

p("C88", "Numbers are rounded to the decimals of their format",
  "A number shown under a format with a fixed number of decimals (0.00, #,##0.00, 0.0%, ...) is the decimal number with that many decimals that is nearest to it (to a hundred times it for percents), with its sign, the digits before the point grouped if the format says so.",
  "every finite float64, every built-in and custom format with a fixed number of decimals",
  "2^64 floats; double rounding and ties go wrong only for particular values",
  "commonxl/fmt.go:sprintfFunc", "commonxl/fmt.go:addCommas", "commonxl/fmt.go:addNegParens", "commonxl/fmt.go:goFormatters", "commonxl/formats.go:makeFormatter")
p("C89", "Accounting formats",
  "Under the accounting formats (41 to 44) zero is shown as a dash, a positive amount with thousands separators, a negative one in parentheses without a minus sign, and the formats 42 and 44 put a dollar sign before it.",
  "every integer and every finite float64",
  "all amounts",
  "commonxl/fmt.go:zeroDashFunc", "commonxl/fmt.go:switchFmtFunc", "commonxl/fmt.go:surround", "commonxl/fmt.go:goFormatters")
p("C90", "Scientific notation",
  "Under a scientific format (0.00E+00, ...) a number is shown as a digit other than zero, the decimals of the format and the power of ten with at least as many digits as the format has, correctly rounded; ##0.0E+0 uses powers that are multiples of three.",
  "every finite float64, every number of decimals",
  "2^64 floats; rounding up to the next power of ten happens only for particular values",
  "commonxl/fmt.go:sprintfFunc", "commonxl/fmt.go:goFormatters", "commonxl/formats.go:makeFormatter")

p("C91", "Numbers in text are read as the nearest float64",
  "A decimal numeral (sign, digits, point, exponent of at most five digits) in a numeric cell of an xlsx sheet, in a field of a text file scanned into a float64, or in a text cell converted to a number gives the float64 nearest to the number written, ties to even; a number beyond the range of float64 is not turned into an infinity: it stays text, or the scan fails.",
  "every decimal numeral of every length",
  "infinitely many numerals; reading goes wrong only for those close to the middle of two floats or at the ends of the range",
  "xlsx/sheets.go:parseSheet", "simple/simple.go:Scan", "commonxl/cell.go:NewCellWithType", "commonxl/fmt.go:convertToFloat64")
p("C92", "Short numbers are shown as they were typed",
  "A number that was typed as a decimal of at most eleven characters (twelve with a minus sign) without superfluous zeros is shown as exactly this text under the General format, though the float64 that is stored differs from it.",
  "every decimal of that length, every float64 nearest to one, integers of all sizes",
  "about 10^12 decimals; a wrong last digit appears only for particular ones",
  "commonxl/fmt.go:identFunc", "xlsx/sheets.go:parseSheet", "commonxl/sheet.go:Strings")
p("C93", "Long numbers are rounded to the width of the General format",
  "A number that takes more than eleven characters is shown under the General format with at most eleven characters (twelve with a minus sign), as the nearest number that can be written with them.",
  "every finite float64",
  "2^64 floats",
  "commonxl/fmt.go:identFunc")
p("C94", "Numbers as text keep their digits",
  "A number converted to text and back is the same number, and a number under the Text format (@) is shown with its digits, as it was typed.",
  "every finite float64",
  "2^64 floats",
  "commonxl/cell.go:NewCellWithType", "commonxl/sheet.go:Put", "commonxl/fmt.go:identFunc")

p("C95", "The way the XML of a workbook is written does not matter",
  "A workbook whose parts are UTF-8 texts of the same elements, attributes and character data is read in the same way however these are written: single or double quotes, white space inside tags, namespace prefixes, references for characters, ends of lines, empty-element tags, comments, instructions, an XML declaration, CDATA sections, a byte order mark.",
  "every document within the limits of the sheet properties, every way to write each of its parts (names of ASCII letters)",
  "unbounded freedom of writing; each program that writes workbooks uses another subset",
  "xlsx/xlsx.go:openXML", "xlsx/workbook.go:parseRels", "xlsx/workbook.go:parseWorkbook", "xlsx/workbook.go:parseStyles", "xlsx/workbook.go:parseSharedStrings", "xlsx/sheets.go:parseSheet")
p("C96", "Parts in UTF-16 are read",
  "A part encoded in UTF-16, which the packaging standard allows besides UTF-8, is read like the same part in UTF-8.",
  "every part in UTF-16",
  "all texts",
  "xlsx/xlsx.go:openXML", "xlsx/xlsx.go:Open", "xlsx/sheets.go:parseSheet")
p("C97", "Shared strings are the text the user sees",
  "A shared string is the text of its text elements, in its runs or directly in it; pronunciation guides (phonetic runs) and white space between elements do not belong to it.",
  "every shared string part",
  "all contents of string items",
  "xlsx/workbook.go:parseSharedStrings")
p("C98", "Escaped characters of strings are decoded",
  "Characters that XML cannot hold, which programs write as _xHHHH_ in strings, are shown as these characters.",
  "every string",
  "all positions of escapes",
  "xlsx/workbook.go:parseSharedStrings", "xlsx/sheets.go:parseSheet")
p("C99", "The date system of an xlsx workbook is honoured",
  "Numbers with a date format are converted to dates with the date system (1900 or 1904) that the workbook part declares.",
  "every workbook, every serial number",
  "all documents and serials",
  "xlsx/workbook.go:parseWorkbook", "xlsx/sheets.go:parseSheet", "commonxl/formats.go:Mode1904")
p("C100", "Cells without a reference follow the cell before them",
  "The reference of a cell element is optional: a cell without one stands in the column after the cell before it, or in the first column of its row.",
  "every worksheet",
  "all arrangements of cells with and without references",
  "xlsx/sheets.go:parseSheet")
p("C101", "Workbooks open at the same time do not disturb each other",
  "However the loading, reading and closing of xls workbooks interleave, each open workbook has the records, sheets and errors that its file has when it is opened alone, also after others are closed, or closed twice, and their memory is used again.",
  "every number of workbooks, all files, every interleaving of loading, decrypting again, closing and garbage collection",
  "all interleavings; a record given back twice shows only in rare schedules",
  "xls/xls.go:Close", "xls/xls.go:recPool", "xls/xls.go:nextRecord", "xls/xls.go:loadFromStream2")
p("C102", "A closed source can be asked without a crash",
  "After Close, List and Get return (an empty list, an error), for every source and every name; they do not crash.",
  "every source of every format, every name",
  "all sources and names",
  "grate.go:Source", "xls/xls.go:Close", "xls/sheets.go:Get", "xlsx/xlsx.go:Close", "xlsx/xlsx.go:Get", "simple/simple.go:Close")
p("C103", "No file stays open after Close or a failed Open",
  "After a source was opened and closed, and after an Open that failed, no file that the library opened is open any more (without waiting for the garbage collector).",
  "every file, every outcome of opening",
  "all files and outcomes; tests do not look at open files",
  "grate.go:Open", "xls/cfb/interface.go:Open", "xls/xls.go:Open", "xls/xls.go:Close", "xlsx/xlsx.go:Open", "xlsx/xlsx.go:Close", "simple/tsv.go:OpenTSV", "simple/csv.go:OpenCSV")
p("C104", "The slice that Strings returns belongs to the caller",
  "Assigning to elements of a slice returned by Strings does not change what the source returns later.",
  "every source, every row, every assignment",
  "all rows; needs a look at memory that is shared",
  "simple/simple.go:Strings", "commonxl/sheet.go:Strings")
p("C105", "What a sheet takes in memory is in proportion to its file",
  "A sheet holds no more cells than its file has bytes.",
  "every file of every format",
  "all files; the sizes that break it cannot be run",
  "xls/sheets.go:parseSheet", "commonxl/sheet.go:Resize", "simple/tsv.go:OpenTSV")
p("C106", "grate2tsv writes every visible sheet of a file",
  "With the default flags grate2tsv writes, for each visible sheet of a file that has a cell with text, one file with the displayed texts of the sheet: rows without text left out, white space tidied. It reports each sheet once, with the number of lines written and no error.",
  "every file of the supported formats that is well formed, all sheets and cell contents",
  "all files, sheet counts and cell contents, through opening, sheet reading, formatting and writing",
  "cmd/grate2tsv/main.go:processFile", "commonxl/sheet.go:IsEmpty", "simple/simple.go:IsEmpty")

p("C107", "Every output of grate2tsv is in its report",
  "Each tsv file that grate2tsv writes has a line in the report with its sheet and the number of lines written, also if another output of the same file cannot be created.",
  "every file of the supported formats that is well formed, every set of outputs that cannot be created",
  "failures of the file system at any point",
  "cmd/grate2tsv/main.go:processFile", "cmd/grate2tsv/main.go:runProcessor")

p("C108", "No file crashes Open",
  "Opening any file, with all formats registered, ends with a source or an error, and so does getting any of its collections; the program does not crash or hang.",
  "every file name, every contents of the file, every order of registration",
  "hostile files: the bytes of a file are unbounded, and crashes depend on combinations of pointers and sizes",
  "grate.go:Open", "xls/xls.go:Open", "xls/cfb/cfb.go:load", "xlsx/xlsx.go:Open", "simple/tsv.go:OpenTSV", "simple/csv.go:OpenCSV")

p("C109", "A whole number shows the same however it is stored",
  "A cell with a whole number shows the same text whether the file stores the number as an integer or as a floating-point number, under every number format.",
  "every whole number, every built-in and custom number format",
  "files store the same number in several ways depending on the program that wrote them; the formats and numbers are unbounded",
  "commonxl/sheet.go:Put", "commonxl/cell.go:NewCellWithType", "commonxl/formats.go:Apply", "commonxl/fmt.go:identFunc")

p("C110", "The same table reads the same from an xls and from an xlsx file",
  "If an xls and an xlsx file hold the same table (the same content and formats in the same cells, and the same size), Open, Get, Next and Strings give the same rows for both.",
  "every table, every way to store it in the two formats",
  "relates two readers that share little code, for all tables and all encodings of them",
  "grate.go:Open", "xls/sheets.go:parseSheet", "xlsx/sheets.go:parseSheet", "commonxl/sheet.go:Put", "commonxl/cell.go:NewCellWithType")

p("C111", "What grate2tsv writes can be opened and exported again",
  "Every output that grate2tsv writes for a sheet opens with Open, its rows are exactly the rows that were written, and exporting it again writes the same bytes.",
  "every sheet of every source, every program with all formats",
  "relates the writer, the detection of formats and the reader, for all tables",
  "cmd/grate2tsv/main.go:processFile", "grate.go:Open", "simple/tsv.go:OpenTSV")

p("C112", "The order of the parts in an xlsx file does not matter",
  "Two xlsx files with the same parts in another order open alike: they list the same sheets, and every program that gets sheets from them and uses them sees the same; or both fail with the same error.",
  "every archive whose entries have distinct names, every order of the entries, every sequence of Get calls and uses of what they return",
  "the orders and the programs are unbounded",
  "xlsx/xlsx.go:Open", "xlsx/xlsx.go:openXML", "xlsx/xlsx.go:Get", "xlsx/sheets.go:parseSheet")

p("C113", "Formats are recognised by the contents of a file, not by its name",
  "For two files with the same contents Open gives the same workbook, or texts with the same rows, or the same error, whatever the names and extensions of the files.",
  "every contents, every two names, every order of registration of the formats",
  "all contents and names; a test tries a few",
  "grate.go:Open", "xls/xls.go:Open", "xlsx/xlsx.go:Open", "simple/tsv.go:OpenTSV", "simple/csv.go:OpenCSV")

p("C114", "Parts of an xlsx file that are not part of the workbook do not matter",
  "Opening an xlsx file and reading it depends only on the relationships of the package and of the workbook, the workbook part, and the sheets, styles and shared strings that these relate to, with the relationships of the sheets. Any other entry of the archive (a theme, a picture, properties, a macro) can be added, removed, changed or unreadable, and every program sees the same.",
  "every archive, well formed or not, every set of other entries, every sequence of Get calls and uses of what they return",
  "the other entries are arbitrary, in any number, with any contents",
  "xlsx/xlsx.go:Open", "xlsx/xlsx.go:openXML", "xlsx/xlsx.go:Get", "xlsx/workbook.go:parseRels", "xlsx/sheets.go:parseSheet")

p("C115", "Comments and the order of attributes in the XML of a workbook do not matter",
  "Two xlsx files whose parts differ only in comments, processing instructions and declarations between the elements and texts, and in the order of the attributes of elements, open alike: they list the same sheets, and every program that gets sheets from them sees the same; or both fail with the same error.",
  "every archive, well formed or not; every permutation of the attributes of every element, any number of comments and instructions anywhere but inside a text",
  "the permutations and the places are unbounded",
  "xlsx/types.go:getAttrs", "xlsx/workbook.go:parseRels", "xlsx/workbook.go:parseWorkbook", "xlsx/workbook.go:parseStyles", "xlsx/workbook.go:parseSharedStrings", "xlsx/sheets.go:parseSheet")

p("C116", "Using some sheets does not change what the others give",
  "After a program has gotten some sheets of a workbook and used them in any way (read them partly, to the end, not at all, several times, or failed to get them), a program that gets other sheets sees exactly what it would have seen at first. For texts, which give their only collection for every name, the same holds for the names that List reports.",
  "every open workbook, in any state; every two programs that ask for disjoint sets of names; every use of the collections",
  "the programs and their interleavings are unbounded",
  "xlsx/xlsx.go:Get", "xls/sheets.go:Get", "simple/simple.go:Get")

p("C117", "A changed or damaged sheet does not affect the other sheets of an xlsx file",
  "If two xlsx files have the same workbook, styles, shared strings and relationships, and the same parts for the sheets of some names, then they list the same sheets, and every program that gets only sheets with those names sees the same in both, whatever the parts of the other sheets are: missing, cut off, not XML, or with other content.",
  "every two archives, well formed or not; every set of names; every program that asks only for those",
  "the archives, the damages and the programs are unbounded",
  "xlsx/xlsx.go:Open", "xlsx/xlsx.go:Get", "xlsx/workbook.go:parseRels", "xlsx/workbook.go:parseWorkbook", "xlsx/sheets.go:parseSheet")

p("C118", "The line endings of a text do not matter",
  "A text file with CR LF line endings opens with the same rows as the one with LF, and a text without a final newline with the same rows as the one with it; more generally, two texts that have the same lines, none of them too long, open alike.",
  "every text without CR whose lines have less than 65535 bytes (for CR LF), every text (for the final newline), every two texts with the same lines, any mixture of endings",
  "the texts and the mixtures of endings are unbounded",
  "simple/tsv.go:OpenTSV")

p("C119", "Opening a file is deterministic",
  "Opening the same file again gives the same source or the same error: the result does not depend on the order in which Go ranges over maps, which differs from run to run.",
  "every file; every two orders of iteration of the maps of column counts and of relationships",
  "the orders are chosen at random by the Go runtime and there are factorially many; a test sees a few of them",
  "xlsx/xlsx.go:Open", "simple/tsv.go:OpenTSV", "simple/csv.go:OpenCSV", "xls/xls.go:Open")


p("C120", "How an xls file is laid out does not matter",
  "Two compound files with the same Workbook stream open alike, whatever the sectors in which the stream is stored, their order, the other streams and entries of the file and what is in free sectors: the same document, the same error or the same crash. A file with such a stream is never read as another format.",
  "every two compound files with a Workbook stream of the same bytes, whether these are a workbook or not; every order of registration of the formats",
  "the layouts of a stream are unbounded",
  "xls/cfb/interface.go:Open", "xls/cfb/cfb.go:load", "xls/cfb/cfb.go:getStreamReader", "xls/xls.go:Open", "xls/xls.go:loadFromStream", "grate.go:Open")

p("C121", "A changed or damaged sheet does not affect the other sheets of an xls file",
  "If two xls files have the same shared strings, number formats, cell styles and names of sheets, and the same records for the sheets of some names, then they list the same sheets, and every program that gets only sheets with those names sees the same in both, whatever the records of the other sheets are, wherever the sheets are stored, and whether the files are encrypted or not.",
  "every two xls files (plain or with the default password), every set of names, every program that asks only for those; sheets with any records that have the bytes they announce",
  "the files, the damages and the programs are unbounded",
  "xls/xls.go:loadFromStream", "xls/xls.go:loadFromStream2", "xls/sheets.go:Get", "xls/sheets.go:parseSheet", "xls/sheets.go:List")

p("C122", "How the cells of a sheet are stored does not matter",
  "If two xls files or two xlsx files with the same number formats have a sheet of the same name and size with the same cells, every sequence of Next, Strings, Types, Formats, Scan and IsEmpty gives the same on both sheets: the order of the cells, the kinds of records or elements, the numbers of the shared strings and of the styles, earlier values of a cell that is written again, unused strings and styles, the names of the parts and encryption with the default password do not matter. If only the numbers of the number formats differ, Strings gives the same.",
  "every two files of the format, every sheet, every sequence of calls",
  "the ways to store a table and the sequences of calls are unbounded",
  "xls/sheets.go:parseSheet", "xls/xls.go:loadFromStream2", "xlsx/sheets.go:parseSheet", "xlsx/workbook.go:parseSharedStrings", "xlsx/workbook.go:parseStyles", "commonxl/sheet.go:Strings", "commonxl/sheet.go:Types", "commonxl/sheet.go:Formats", "commonxl/sheet.go:Scan")

p("C123", "What grate2tsv writes for a file does not depend on the other files",
  "When grate2tsv exits, every output of every file on the command line is on the disk with exactly the bytes of its sheet, whatever the other files, the number of processors, the schedule and the files that existed before, and no other file has changed. At every moment before, an output on the disk is as it was or a first part of its bytes.",
  "every command line, every number of workers, every interleaving, every way in which the buffers are written out, every moment",
  "the number of files and the interleavings are unbounded",
  "cmd/grate2tsv/main.go:main", "cmd/grate2tsv/main.go:runProcessor", "cmd/grate2tsv/main.go:processFile")

p("C124", "A cut-off xls file is never read as a different workbook",
  "If an xls file is cut off at any place, as by a broken transfer, Open either fails or gives the workbook of the whole file; it never gives a workbook with other sheets or cells.",
  "every compound document, every place where it is cut off, every registered set of formats",
  "the files and the places are unbounded, and what is behind the end of the file in memory depends on the runtime",
  "xls/xls.go:Open", "xls/cfb/cfb.go:load", "xls/cfb/cfb.go:getStreamReader", "xls/cfb/cfb.go:getMiniStreamReader", "grate.go:Open")

p("C125", "A damaged part of an xlsx file is reported",
  "If one part of an xlsx file that the workbook, its styles, its shared strings or a sheet is in is missing, cannot be opened, fails while it is read (compression, checksum, XML syntax) or ends inside markup, the program is told: Open fails if the part is needed to open the file, else Get of the sheet fails, now and later, whatever else the program does with the source; a workbook or sheet with part of the data is never given without an error.",
  "every workbook, every part, every kind of damage, every program that uses the source, every registered set of formats",
  "the workbooks, the places of the damage and the programs are unbounded",
  "xlsx/xlsx.go:Open", "xlsx/xlsx.go:openXML", "xlsx/xlsx.go:Get", "xlsx/workbook.go:parseRels", "xlsx/workbook.go:parseWorkbook", "xlsx/workbook.go:parseStyles", "xlsx/workbook.go:parseSharedStrings", "xlsx/sheets.go:parseSheet")

p("C126", "Hidden sheets are not listed",
  "List of a workbook names the visible sheets only, each as often as there are visible sheets of that name, in xls and in xlsx files.",
  "every workbook",
  "the workbooks are unbounded",
  "xls/sheets.go:List", "xlsx/xlsx.go:List", "xlsx/workbook.go:parseWorkbook")
p("C127", "IsProtected tells encrypted workbooks",
  "IsProtected of an opened xls workbook is true if the workbook is encrypted and false if not.",
  "every workbook that opens",
  "the workbooks are unbounded",
  "xls/xls.go:IsProtected")
p("C128", "Cells are values of their own",
  "No two cells of a sheet share memory, and Raw hands out copies: changing cells that Raw returned does not change the sheet, later calls on the sheet (Put, Set, SetURL, Resize) do not change them, and a program reads what it would read if every cell were a value.",
  "every sequence of calls on a sheet and of changes to cells it handed out, every growth policy of append",
  "whether slices share an array depends on the whole history of appends and reslicings",
  "commonxl/cell.go:Clone", "commonxl/cell.go:SetURL", "commonxl/cell.go:SetFormatNumber", "commonxl/sheet.go:Raw", "commonxl/sheet.go:Put", "commonxl/sheet.go:Set")
p("C129", "Text read from a file is valid UTF-8",
  "The names of sheets, the texts and links of cells, what Scan stores into strings, the names of types and formats and what Strings gives are valid UTF-8, as programs that write JSON, XML or to a database need them, whatever the encoding of the text in the workbook; for text files, if the file is valid UTF-8.",
  "every xls, xlsx and text file that opens, every sheet, every row, every sequence of calls, every format of a cell",
  "the files, texts and format codes are unbounded, and invalid text appears only for certain characters at certain places",
  "xls/sheets.go:parseSheet", "xls/hyperlinks.go:parseHyperlinkMoniker", "xls/strings.go:parseSST", "commonxl/fmt.go:addCommas", "xlsx/sheets.go:parseSheet", "simple/tsv.go:OpenTSV")

p("C130", "Links leave the cells of a sheet as they are",
  "A link in a sheet adds the link to the cells it covers and changes nothing else: URL gives the target of the link for these cells, their values and texts are those they have without the link, and all other cells are as without it.",
  "All sheets of xls and xlsx workbooks, with any cells and any links",
  "Tests compare a few files; whether a link overwrites a value depends on the kind of the link, on the region it covers and on what is in the cells, and the loss is silent.",
  "xlsx/sheets.go: parseSheet", "xls/sheets.go: parseSheet", "commonxl/sheet.go: SetURL", "commonxl/cell.go: URL")
p("C131", "Archives that are not workbooks are answered with ErrUnknownFormat",
  "Open of a zip archive that is no workbook (an OpenDocument file, a document of a word processor or a presentation, a program archive, a plain zip file) fails with ErrUnknownFormat, as for other files that are in no format that is known.",
  "All zip archives without a workbook, programs with all formats in any order",
  "Tests open a few archives; what happens depends on which parts an archive has, on the relationships in them, and on the bytes of the compressed file, which the text readers get to see.",
  "xlsx/xlsx.go: Open", "xlsx/workbook.go: parseRels", "xlsx/workbook.go: parseWorkbook", "grate.go: Open", "simple/tsv.go: OpenTSV")

p("C132", "Formulas are read by their results",
  "A cell of an xlsx sheet with a formula reads as the result that is stored with the formula: whatever a program reads from the sheets, it is the same with and without the formulas, in particular the text of a formula is never given as the value of a cell.",
  "All worksheets, all formulas and results, all documents, all programs that read the sheets",
  "The reader does not distinguish the text of a formula from that of a value: it relies on the order of the two in the cell, so that what a test with one workbook shows depends on whether the results were stored.",
  "xlsx/sheets.go: parseSheet", "commonxl/sheet.go: Put")

p("C133", "Formats gives the format codes of the cells",
  "While a sheet of a workbook is read, Formats gives for each cell of the current row the code of the number format that the workbook gives to it, and General for cells without one.",
  "All sheets as the readers leave them (C49, C58), all rows, all cells, all number formats",
  "The codes are in one table, the numbers of the formats in the cells, and the cells are written more than once by some records: whether the two meet for all cells of all sheets is not visible from single cells.",
  "commonxl/sheet.go: Formats, Put", "commonxl/cell.go: FormatNo, SetFormatNumber", "commonxl/formats.go: builtInFormats")

p("C134", "Scan gives the values that are stored in the file",
  "While a sheet of a workbook is read, Types names the types of the values stored for the cells of the current row (numbers, truth values, texts), and Scan into variables of the types that Types names gives the stored values unchanged.",
  "All sheets as the readers leave them, all rows, all cells and values, all destinations",
  "The type of a cell is chosen by its number format and its value is converted to it; which conversions lose something depends on the value, the format and the type together.",
  "commonxl/sheet.go: Scan, Types, Put", "commonxl/cell.go: NewCellWithType")

p("C135", "The number formats that a workbook defines are the ones its cells are shown by",
  "If a workbook defines a number format, values with its number are shown, and cells with its number get the type, as a formatter to which only this format was added does it; other definitions in the workbook make no difference.",
  "All well-formed workbooks of both formats, all their definitions, all numbers and codes, all values",
  "A format passes through records or style parts, tables of built-in formats and maps that earlier and later definitions share; tests have a few formats with numbers from 164 on.",
  "commonxl/formats.go: Add, Apply, getCellType", "xls/xls.go: loadFromStream", "xlsx/workbook.go: parseStyles")

p("C136", "grate2tsv: outputs on a full disk are first parts, and reported",
  "Whatever writes to an output of grate2tsv fail, the output holds a first part of the text of its sheet, at any moment; if it does not hold the whole text, the report has an error for the sheet.",
  "All sheets, all sizes of the write buffer, all sequences of failing writes and numbers of bytes they wrote before failing",
  "Tests write to disks with room; a failing write can come at any byte and any number of times, and its error passes through a buffer that keeps it until a later call.",
  "cmd/grate2tsv/main.go: processFile, main, output")

p("C137", "The report of grate2tsv is a table of six columns",
  "After any number of runs of grate2tsv the report is a tab-separated table: the names of the columns once, then for each sheet and each file that could not be processed one row of six cells with the time, the names, the counts and the error, in the order of the runs; what was in the report before is kept, and the report opens as this table.",
  "All runs, all files, sheets, names, counts and errors, all executions of the goroutines, all former contents of the report",
  "Names and messages come from outside, rows from concurrent workers, and the file is shared by runs; tests look at none of it.",
  "cmd/grate2tsv/main.go: main, runProcessor, stats", "simple/tsv.go: OpenTSV", "grate.go: Open")

p("C138", "The flags of grate2tsv do what their descriptions say",
  "For every setting of the flags: with -r tabs, newlines and runs of spaces in cells are condensed to one space, with -w white space at the ends of cells is removed, with -b blank rows are left out; what is written is exactly the table after that, and the report counts its rows. With -p nothing is written and the report is the same.",
  "All sixteen settings of the flags, all sheets, all cell texts, all files",
  "Tests, if there were any, would try the defaults; the flags act on one variable in a loop that assigns to the row under one of them only.",
  "cmd/grate2tsv/main.go: processFile, removeNewlines, trimSpaces, skipBlanks, pretend")

p("C139", "Rows of every source can be scanned by their Types",
  "For the current row of any collection, Scan into variables of the types that Types names (blank and hyperlink being string types) succeeds and gives the values of the row, and Scan has the same outcome on a text and on a sheet with the same cells.",
  "All collections of text files and sheets, all rows, all values, all variables",
  "The contract is written once, in the comments of an interface, and implemented twice; tests scan no rows of sheets and choose the types by hand.",
  "grate.go: Collection", "commonxl/sheet.go: Scan, Types", "simple/simple.go: Scan, Types", "commonxl/cell.go: Value, NewCell")

p("C140", "Documents are read from the bytes of any zip archive that has their parts",
  "A file that is a zip archive with the parts of a document opens and lists and gives what the parts say, however the archive is made: members stored or deflated, with or without data descriptors, in any order and place, with extra fields, comments, or other bytes before, between and after them. Two archives with the same members open as the same document, and a file without the end record of an archive is declined.",
  "All archives (not of the Zip64 extension), all members, all contents of fields that do not matter, all documents, all registrations of the formats",
  "Every program that writes workbooks arranges archives in its own way; test files come from a few of them.",
  "xlsx/xlsx.go: Open, openXML")

p("C141", "Damaged parts of documents are noticed by their checksums",
  "If the data of a part are not those that its checksum in the archive belongs to, a document whose opening needs the part is not opened, and a sheet of the part is never given without an error.",
  "All archives, all parts, all damage that changes the checksum, all programs using the document before",
  "Damage can be anywhere; tests read intact files.",
  "xlsx/xlsx.go: Open, openXML, Get", "xlsx/sheets.go: parseSheet")

p("C142", "A few damaged bytes of a document are always noticed",
  "If up to four consecutive bytes of a part of an xlsx file that is stored without compression are replaced, this never goes unnoticed: if Open reads the part, the file does not open as a document; if the part is a sheet, the document opens and Get gives an error for that sheet and never wrong cells.",
  "every zip archive of a document (any order of members, any bytes between them, with or without data descriptors), every stored member, every position in its data, every replacement of up to four consecutive bytes, every sequence of calls before Get",
  "The number of archives, positions and replacements is without bound, and a test can only try some; that no replacement has the old checksum is a fact about all of them.",
  "xlsx/xlsx.go: Open, Document.openXML", "xlsx/sheets.go: Sheet.parseSheet", "xlsx/workbook.go: parseRels, parseWorkbook, parseStyles, parseSharedStrings")

p("C143", "The declared size of an xlsx sheet does not matter",
  "The dimension element of a worksheet is optional and only a hint. Whatever size it declares, and if it is missing, reading the sheet gives the same cells: the same values, types, formats, links and marks of merged regions, and the same texts in all rows, up to blank rows and columns at the ends.",
  "every worksheet (any cells, links and merged regions), every two dimension elements or none, every document",
  "The worksheets and the sizes are unbounded, and files written by one program always declare the size in the same way.",
  "xlsx/sheets.go: Sheet.parseSheet (dimension, mergeCell)", "commonxl/sheet.go: Resize, Put, Next, Strings")

p("C144", "Truth values and error values are shown as such",
  "A cell with a truth value is shown as TRUE or FALSE, and a cell with an error value as the text of the error (#DIV/0!, #N/A, ...), as in a spreadsheet program, whatever number format the cell has.",
  "every cell with a truth value or an error value (stored or the result of a formula), every number format, every sheet it is in",
  "The effect depends on the combination of the value with one of an unbounded number of formats; an error that is shown as a number looks like a correct result.",
  "commonxl/cell.go: NewCellWithType", "commonxl/sheet.go: Put, Strings", "xlsx/sheets.go: parseSheet", "xls/sheets.go: parseSheet")

p("C145", "The declared size of an xls sheet does not matter",
  "Whatever size the Dimensions record of a worksheet of an xls file declares, and if it is missing, reading the sheet gives the same cells: the same values, types, formats, texts of hyperlinks and marks of merged regions, and the same texts in all rows, up to blank rows and columns at the ends.",
  "every worksheet (any cells, formulas, hyperlinks, merged regions and embedded charts), every two Dimensions records or none, every workbook",
  "The worksheets and the sizes are unbounded, and files written by one program always declare the size in the same way; only regions up to the last column show the difference.",
  "xls/sheets.go: parseSheet (Dimensions, HLink, MergeCells)", "commonxl/sheet.go: Resize, Put, Next, Strings")

p("C146", "Dates that are stored as texts are dates",
  "An xlsx file can store a date as text in the form of ISO 8601, in a cell of the type d. Such a cell is a date, as a cell with the number of the day is: Types says so, Scan into a time gives the day, and Strings shows it in its number format.",
  "every date, every number format for dates and times, every worksheet",
  "The dates, formats and worksheets are unbounded, and common programs write dates as numbers, so that files with such cells are rarely among those of a test.",
  "xlsx/sheets.go: Sheet.parseSheet (DateCellType)", "commonxl/cell.go: NewCellWithType", "commonxl/dates.go: timeFmtFunc", "commonxl/sheet.go: Put, Scan, Strings")

p("C147", "Indentation of the parts of an xlsx file does not matter",
  "Two xlsx files whose parts differ only in line ends and spaces between their elements open alike: the same sheets, and the same answers to every program, including errors. Some programs write each element on a line of its own, others write everything on one line.",
  "every archive, every indentation of every part, every program that uses the result",
  "The files and the places for white space are unbounded, and the files of a test come from programs that do not indent.",
  "xlsx/sheets.go: Sheet.parseSheet (CharData)", "xlsx/workbook.go: parseSharedStrings, parseRels, parseWorkbook, parseStyles", "xlsx/xlsx.go: Open")

p("C148", "Layout and settings in an xlsx file do not matter",
  "Two xlsx files that have the same relationships, sheet names, strings, number formats, cells, merged regions and links open alike, whatever else their parts say: column widths, row heights, views, filters, fonts, colours, print settings, extensions, and further attributes of any element.",
  "every archive, every other element (anywhere, also inside cells and strings), every other attribute, any text outside cells and strings, every program that uses the result",
  "The elements and attributes of such files are an open set: programs and later versions of the format add their own. A test has only those of its files.",
  "xlsx/sheets.go: Sheet.parseSheet", "xlsx/workbook.go: parseRels, parseWorkbook, parseStyles, parseSharedStrings, getAttrs", "xlsx/xlsx.go: Open")

p("C149", "Layout records and charts in an xls sheet do not matter",
  "Two xls files that agree in strings, number formats, styles and sheet names, and whose sheets have the same cell, merge, link and size records, open alike, whatever other records the sheets have (column widths, row heights, windows, page setup, notes, filters) and whatever charts are embedded in them.",
  "every number, type and place of the other records (with their Continue records), every embedded object, any contents of the records that are the same, every program that asks for such sheets",
  "The other record types are an open set, and each may be at any place among the cells. A test has only those of its files.",
  "xls/sheets.go: WorkBook.parseSheet", "xls/xls.go: WorkBook.loadFromStream2")

p("C150", "Renaming, moving or hiding sheets does not change their contents",
  "What Get gives for a sheet depends on the contents of the sheet and on the strings, styles and number formats of the workbook, not on the name of the sheet, its place among the sheets, whether it is visible, the name of its part (xlsx) or its position (xls).",
  "every two workbooks (xls or xlsx), every two names, any other sheets, any contents of the sheet, damaged ones included",
  "Names and orders of sheets are arbitrary. A test that renames one sheet of one file says nothing about others.",
  "xls/sheets.go: WorkBook.Get, WorkBook.parseSheet", "xlsx/xlsx.go: Document.Get", "xlsx/workbook.go: parseWorkbook")

p("C151", "A byte order mark is not part of the first field of a text",
  "A tab separated text that begins with a byte order mark (UTF-8) is opened as it would be without the mark, and its rows are the same: the mark is not part of the first field.",
  "every text that is not empty and has no line beyond the scanner's limit, every order in which the map of column counts is iterated",
  "The mark can precede any text. A test with one marked file says nothing about the decision whether other texts are taken as tab separated.",
  "simple/tsv.go: OpenTSV", "grate.go: Open")

p("C152", "The order of the lines of a text does not decide whether it is opened",
  "Whether a text is opened as tab separated depends on nothing but how many of its rows have how many fields: sorting or shuffling its lines, or changing the values in it, never makes a readable file unreadable. Shuffling the lines shuffles the rows in the same way and changes none of them.",
  "every two texts with fewer than 2^50 rows and no line beyond the scanner's limit, every reordering of the lines, every orders in which the maps of column counts are iterated",
  "A file of n lines has n! orders, and the decision iterates over a Go map, whose order changes between runs.",
  "simple/tsv.go: OpenTSV", "grate.go: Open")


if __name__ == "__main__":
    out = os.path.join(os.path.dirname(os.path.dirname(os.path.abspath(__file__))), "properties.jsonl")
    with open(out, "w") as f:
        for x in P: f.write(json.dumps(x, ensure_ascii=False) + "\n")
    print(len(P))
