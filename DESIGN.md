# Formal model of pbnjay/grate in Lean 4 — design

## 1. Method

The Go code in `/repo` is re-written function by function as total, computable Lean 4 functions
(`/verif/lean/Verif/Model/*.lean`); every definition cites the Go lines it models. Properties are
stated in `/verif/lean/Verif/Props/*.lean` against small specifications
(`/verif/lean/Verif/Spec/*.lean`) that do not mention the model's helpers, and proved there for all
inputs. Supporting lemmas live in `/verif/lean/Verif/Lemmas/*.lean`.

### Conventions of the model

* `GoRes α = ok a | err e | panic` — a Go function returning `(T, error)`; run-time panics
  (index out of range, nil function call, explicit `panic`) are an explicit third outcome, so
  "never crashes" is a theorem `≠ panic` and crashes found in the code are theorems `= panic`.
* Go strings and `[]byte` are `List UInt8`. Where a slice expression may legally extend past
  `len` up to `cap` (`s[:n]`), slices are modelled as `Slice = (visible bytes, bytes between len and cap)`.
* Go `int`/`int64` are `Int`/`Nat` where the property is not about overflow; fixed-width arithmetic that
  can wrap in the code (record sizes in `uint16`, RK numbers, `uint` -> `int64`) uses `BitVec`/`UInt*` or an explicit `%`.
* `float64` is Lean core's `Float`, whose kernel semantics is core's IEEE-754 binary64 model
  (`Float.Model`); NaN payloads are canonicalised.
* Mutation through a receiver is modelled by returning the new state; loops are structural
  recursion, folds, or fuel-bounded iteration of an explicit step function (fuel only where the Go
  loop may genuinely diverge or terminates by a measure proved separately).
* Standard library calls that are not re-modelled (e.g. MD5, `time.Format`, `%g` printing, zip and
  XML tokenising, CSV reading) are parameters of the model (record `Ext`, token lists, ...). Theorems quantify over them,
  i.e. hold for every behaviour of these parameters unless a hypothesis says otherwise.

## 2. Trusted base

* Lean 4.33.0 kernel; axioms at most `propext`, `Classical.choice`, `Quot.sound`.
  No own axioms, no `sorry`, no `native_decide`/`bv_decide`.
* The faithfulness of the hand translation Go -> Lean (the code is not run here).
* The re-models of Go library functions listed in section 5.

## 3. Property plan

| id | modelled | proof idea |
|----|----------|------------|
| C01, C02 | `Register` as "any priority-sorted permutation", `Open` as a walk with call trace | induction over registrations, sorted-list argument |
| C03 | errors as a tree, `errors.Is` as the `Unwrap` chain | induction on wrapping |
| C04, C05 | `bufio.ScanLines`, `strings.Split`, `OpenTSV` on bytes | induction on bytes/rows; round trip |
| C06 | counting map as an association list visited in any order | permutation invariance of the fold |
| C07 | `OpenCSV` over the abstract result sequence of `csv.Reader.Read` | refuted: never succeeds; partial: exact error classes |
| C08, C09 | `simpleFile` state machine, `strconv.ParseInt` | induction on calls |
| C10-C13 | `Sheet` state machine | invariant + refinement to a map (row,col) -> cell |
| C14-C18 | `Put`, `Scan`, `Set`, `SetURL`, `IsEmpty`, `Strings` | case analysis; refutations with witnesses |
| C19-C22 | `NewCell`, `NewCellWithType`, `Less`, `Equal` | case analysis |
| C23-C30 | `Formatter`, the renderer combinators as an AST with an interpreter, the three tables | induction on histories, digit-list induction for commas, full-table `decide` |
| C31 | `ConvertToDate` with Go's `time.Date` calendar | arithmetic of the Julian-day formula |
| C32 | `DecimalToFraction` loop | loop invariant |
| C33, C34 | `SliceReader` | refinement to (bytes, position) |
| C35, C36 | FAT / mini FAT chain walk | induction on the chain |
| C37 | DIFAT loop as a step function | refuted by a cyclic DIFAT (all fuels); termination of the other loops |
| C38, C39 | header checks, directory loop | computation; refutation for > 4 entries |
| C40, C41, C42 | `rc4Writer`, overlay pass; MD5 and the RC4 key stream as parameters | invariant on writer; record induction |
| C43, C44, C45 | `nextRecord`, `loadFromStream2`, `List/ListHidden/Get` | induction on records |
| C46, C47, C66 | `parseSST`, string decoders, UTF-16/UTF-8 | induction on strings x splits |
| C48 | RK decoding on `BitVec 32` | bit arithmetic; refuted for int/100 |
| C49-C52 | `parseSheet` record interpreter, `decodeHyperlinks` | computation, region induction |
| C53, C62 | the above, with panics explicit | refuted with witnesses; partial no-panic theorems (xls: every stream whose records have the bytes they announce; xlsx: every worksheet without the causes listed in `SafeWs`, every history of Get) |
| C54 | `loadFromStream2` | refuted: formatter flag never set |
| C55 | `refToIndexes`, `col2int` | bijective base-26 numeration, decimal numerals |
| C56-C61 | token-stream interpreters for the xlsx parts | induction on tokens |
| C63, C64 | interleaving state machine of main / workers / cleanup | inductive invariants, progress; deadlock witness for 0 workers |
| C65 | `processFile` row loop and TSV re-reading | composition with C04 |
| C74-C76 | `coerce`, `Fmt.eval`, `Sheet.strings` | structural induction on formats; the invariant that no stored value but a formula's is the empty text; uses C10, C12 |
| C77-C81, C83 | the four formats behind `grate.Open` | composition of C01, C35-C39, C45, C49, C04-C06, C58, C61; encrypted workbooks via C67 |
| C82 | `cmd/grater` | composition of C13, C76-C79; the state of an xlsx source is threaded through the sheets |
| C84 | `Sheet.resize`, `Put`, both readers | the least size with room for all writes, as an invariant of the writes |
| C85 | `Get` of the four formats, `Next` | the source after its collection was moved `k` rows |
| C88, C89, C90 | `sprintfFunc` with float verbs, `addCommas`, `zeroDashFunc`, `switchFmtFunc` | exact rational value of a float, integer rounding half to even against `Nearest` over ℚ; digits by induction on the number of decimals |
| C91 | `ParseFloat` at its four call sites | correct rounding of core's division: interval ("cell") of the numbers rounded to a float, nearest by the spacing of floats |
| C92, C93, C94 | `identFunc`, `NewCellWithType`, `Put` | shortest digits: `pick` finds digits iff some lie in the cell; uniqueness of numbers of 15 digits by spacing |
| C95, C96 | `RawToken` of `encoding/xml` on bytes, the xlsx parts | the ways to write tokens as an inductive relation; one loop lemma per kind of markup; a byte order mark is one more text token that all parts ignore |
| C97-C100 | the xlsx part interpreters | induction on tokens; refuted with complete documents |
| C101 | `recPool`, `nextRecord`, `Close`, `loadFromStream2` on shared memory | transition system; invariant: every record has one owner, and what a workbook has gathered is what the pure loader has gathered |
| C102, C103, C104 | `Close` of the sources, file events of the openers, the slice of `Strings` | exact characterisation, case analysis on the openers called |
| C105 | the first pass over a sheet of an xls workbook, `Resize`; text files | C49 on a family of workbooks of constant size; sizes of lines and fields |
| C106, C107 | `processFile` of grate2tsv on the three kinds of sources | C58, C61, C77, C84 for each sheet, composed along the list of sheets; then C65 |
| C108 | `Open` on arbitrary bytes | C37 for whole files (no crash in the container, by induction over the tables and chains), C53 for the workbook stream, C62 for archives, composed along the list of formats |
| C109, C110 | one table, two formats | C109 by cases on the type of the format, with float printing as in `GoShort`; C110 relates the two readers through the writes of C49/C77 and C58/C78, cell by cell |
| C111 | `grate2tsv`, then `Open` | tidying is idempotent (induction over `Squeezed`), rows of one width are never declined, composed with C06, C65 and C106 |
| C112, C113 | what does not matter: the order of parts, the name of a file | lookups by name are invariant under permutation; programs are trees of `Get` calls (`Client`), related by induction |
| C114, C115 | what does not matter: other parts of an archive, comments, the order of attributes | the names asked for are among those of `Matters`; each loop over tokens is invariant under `SameToks`; programs as in C112 |
| C116, C117 | the sheets of a workbook are independent of each other | an invariant on two documents that agree on a set of names (`AgreeOn`), kept by programs that ask for other names; for two archives, an invariant on the parts of those sheets (`KeptOn`) |
| C118 | line endings | texts with the same lines (`LinesOf`) are scanned alike; the lines of a converted text by induction on `LinesOf` |
| C119 | determinism | a list all of whose elements are equal has one order; the relationships of an opened document come from the file (`Related`) |
| C120 | layout of compound files | both files reduce to loading the same stream (C39); no error of loading a stream means "other format" (`Own`) |
| C121 | independence of xls sheets | a sheet read without a crash when nothing lies behind its records is read the same whatever lies there (`Below`, simulation of both passes); C49 and C53 say when it does not crash |
| C122 | storage of cells | what C49 and C58 say of a sheet (`Holds`, `SizeIs`, `Rectangular`) determines value, type and format of every cell; every sequence of calls depends on these alone |
| C123 | the goroutines of grate2tsv with the disk | invariant: the file of an open output holds the first `sent` bytes of it, that of a flushed output all; the paths of open and flushed outputs differ; composed with C64 and C65 |
| C124 | loading a compound document and opening its streams; `Open` | monotonicity: every step that succeeds on a buffer gives the same on a longer buffer that begins with it; the directory of a document has one root entry |
| C125 | `Open` and `Get` on archives in which one part is missing, unreadable or cut; the tokenizer on bytes that end in markup | the other parts read as before (C61), the damaged one gives an error at its place; invariant over all programs: its sheet is never loaded without an error; every markup token consumes up to a `>` |
| C126 | `List` in both formats | from C77; counterexample for xlsx |
| C127 | `IsProtected` | counterexample: an encrypted file, with concrete MD5 and RC4 |
| C128 | cells as references to arrays on a heap; programs as lists of calls | simulation by the machine on values; invariant: every array has one owner |
| C129 | sources opened by `Open`, all sequences of `Get` and of calls on sheets; XML tokens from the bytes of the parts | invariant over the parsers of both formats and over all formatting functions: every text is the UTF-8 form of scalar values |
| C130 | worksheet tokens and sheet records with any content (as in C58 and C49) and any links after it, next to the same sheet without the links | last writes to cells: links write only to the cells they cover |
| C131 | any zip archive without `_rels/.rels`, without a relationship to a main document, or with a main document that has no sheets; all formats in any order | reduction to C81 and C78; the loop over relationships |
| C132 | any worksheet with any formulas; the parts that are used for opening and the relationships of the sheets are the same | writing a cell twice is writing it once (`put_put`); induction over the text of the part; programs as in C117 |
| C133 | any sheet that holds what was written (C49, C58), any row after any number of calls of Next | what a cell holds of the format of the last write; the table of the standard against that of the code |
| C134 | any sheet that holds what was written, any row, any cells; any destinations of the types named | inversion of the conversions by type; induction over the destinations |
| C135 | any workbook, any definitions, any number and code, any value | frame lemmas of Add over the list of definitions, on top of C44 and C61 |
| C136 | any sheet, any buffer size, any faults of writes | invariant of `bufio.Writer` over the calls of `Write` and `Flush`; uniqueness of the text (C65) |
| C137 | any runs, any lines, any executions, any former report | induction over lines and runs; C63 for the interleavings, C04/C06 for reading it back |
| C138 | any flags, any sheet, any cells, any file | induction over cells, rows and sheets; uniqueness of the described text |
| C139 | any collection, any row, any variables | case analysis of types and values, induction over the row |
| C140 | any file laid out as a zip archive (APPNOTE 4.3), any members | `archive/zip` as a recursive-descent reader: search for the end record from the end, induction over the directory, fields by offset; C95 and C125 for the rest |
| C141 | any archive with other data for the first member of a name | the checksum in the directory as a function of its own; the end of the reader of the member; C125 |
| C142 | any archive, any stored member, any replacement of up to four consecutive bytes in the file | `hash/crc32` as a bit-serial shift register: linear and injective; the damaged file is an archive again with the checksums of before, then C141 |
| C143 | any worksheet, any two declared sizes or none | cells do not depend on the size (`WsToks` does not, C58); merged regions do |
| C144 | any truth or error value, any format, any place in a sheet | on `Put`, `Strings` and the readers (C49, C58, C74) |
| C145 | any worksheet of an xls file, any two declared sizes or none | cells do not depend on the size (`SheetRecs` does not, C49); regions up to the last row or column do |
| C146 | any date in ISO form, any format for dates, any place in a sheet | the reader as in C58, `ParseFloat` on the text (`GoParses`), `Put` and `Strings` |
| C147 | any part, any character data outside `c` and `si`, any program; inside them any cell and any white space | the readers as in C115, the XML text grammar of C62 |
| C148 | any part, any elements and attributes that are not read, anywhere, any program | the readers as in C115, the XML text grammar of C62 |
| C149 | any other records and objects, anywhere, any program | the records of a sheet as in C49, files as in C121 |
| C150 | any two workbooks, any names and places of the sheet | files as in C78 and C121 |
| C151 | any text that is not empty, with and without the mark | no line that is too long |
| C152 | any two texts with the same numbers of fields per row, in any order | no line that is too long, fewer than 2^50 rows |
| C86, C87 | `time.Format`, `ConvertToDate`, the format tables | the calendar of `time` is the day-by-day calendar of C31 (inverse of `time.Date`); induction on the fields of a layout; rounding errors of the float operations |
| C70-C73 | `makeFormatter`, its regular expressions as functions on bytes | codes described by a grammar; one lemma per replacement, induction on fields |


## 4. What is modelled, file by file

| Go file | functions modelled | Lean module |
|---|---|---|
| `grate.go`, `errs.go` | `Register`, `Open`, `WrapErr`, `errx.Error/Unwrap`, `errors.Is` | `Model/Registry` |
| `simple/simple.go`, `tsv.go`, `csv.go` | everything (file bytes given) | `Model/Simple` |
| `commonxl/sheet.go` | everything | `Model/Sheet` |
| `commonxl/cell.go` | everything; cells as values in `Model/Cell`, as slices of arrays on a heap in `Model/CellHeap` (the two agree, C128) | `Model/Cell`, `Model/CellHeap` |
| `commonxl/fmt.go`, `formats.go` | everything; the compiler of custom formats (`makeFormatter`) is `Model/MakeFormat`; renderers are a syntax tree `Fmt` with an interpreter; the three tables are compared with the Go text by `tools/check_tables.py` | `Model/Format` |
| `commonxl/dates.go`, `numbers.go` | everything | `Model/Dates` |
| `xls/cfb/slicereader.go` | `Read`, `Seek` | `Model/SliceReader` |
| `xls/cfb/cfb.go`, `interface.go` | `load`, `buildDirs`, both stream readers, `List`, `Open` (not `directory.String`) | `Model/Cfb` |
| `xls/crypto/*.go` | `rc4Writer`, `NewBasicRC4`, `SetPassword`, `Verify`, key derivation; MD5 and RC4 as parameters, the functions themselves in `Model/GoCrypto` | `Model/Crypto`, `Model/GoCrypto` |
| `xls/xls.go` | everything | `Model/XlsStream`, `Model/Crypto` (decryption pass), `Model/RecPool` (records as shared memory) |
| `xls/strings.go`, `structs.go`, `sheets.go`, `hyperlinks.go` | everything except `RKNumber.String` | `Model/XlsStrings`, `Model/XlsSheet`, `Model/Hyperlinks` |
| `xls/records.go` | the record numbers; `recordType.String` is debug output | `Model/XlsStream` |
| `xlsx/*.go` | everything, on token lists (which come from bytes by `Model/GoXml`) | `Model/Xlsx`, `Model/XlsxRefs`, `Model/Tokens` |
| `cmd/grate2tsv/main.go` | `processFile` as a function; `main`, workers and cleanup as an interleaving transition system | `Model/Grate2tsv`, `Model/Workers`, `Model/WorkersDisk` |
| the report (`results.txt`): opening it, the first line, `Fprintf` of the lines | one process; the text of errors and times are arguments | `Model/Report` |
| the writes of `processFile` through `bufio.Writer` to a disk that may refuse them | buffer size and faults are arguments; errors of `Close` left out | `Model/BufWriter` |
| the four `init` functions, `xls.Open`, `xlsx.Open` | the formats as functions of the file's bytes, `List`, `Get`, collections | `Model/Open` |
| `Close` of the three kinds of sources; where files are opened and closed; whose memory `Strings` returns | as events and effects of their own | `Model/Close` |
| `processFile` of grate2tsv with `Open`, `List`, `Get`, `IsEmpty`, `Next`, `Strings` of the shipped sources | the row assigned to is not seen again by the model (C104) | `Model/Grate2tsvSrc` |
| `cmd/grater/main.go` | the loops over files, sheets and rows, with standard output and standard error | `Model/Grater` |

### Concurrency (`Model/Workers`)

A state holds main's program counter, the worker list (each idle, holding a file, or processing with
its outputs so far), the job channel with its capacity, the output pool, the wait groups, the mutex and
the log. `Step` is one atomic action of one goroutine; `Steps` is its reflexive-transitive closure, so a theorem
about every state reachable from `init` covers every schedule. `processFile` is a job that may produce any outputs
and any report; C63_files instantiates it with the sequential model.

`Model/WorkersDisk` adds the contents of the files, the part of every open output that has been written, and panics: buffers may
be written out in pieces of any size, a file with an offset per open output (as POSIX has it), a panic ends the program at once.

### Floating point (`Lemmas/Float*`)

Lean core defines `Float` operations in the kernel through `Float.Model` (unpack, exact operation, round,
pack). `Lemmas/FloatRound`, `FloatVal`, `FloatOps` and `FloatOrd` prove from those definitions that each operation is
correctly rounded: `fval x : ℚ` is the exact value, `Rep q` says that `q` is representable, and
`Rounds q r` says that `r` lies on the same side of every representable number as `q`. All statements about
`float64` in C06, C21, C22, C30, C31, C32, C48 rest on these, not on testing.

## 5. Library functions re-modelled or left open

Re-modelled in Lean, read from their documentation (trusted to agree with Go):

* `bufio.ScanLines` with its 64 KiB limit, `strings.Split/Join/Replace/Contains/IndexAny/LastIndexAny/TrimSpace/ToLower`
  (ASCII and the Unicode blanks where relevant), `strconv.ParseInt/Itoa/FormatInt`, `strconv.Atoi`.
* the regular expressions of `formats.go` (each as a function on bytes, with leftmost-first matching).
* `unicode/utf16.Decode`, UTF-8 encoding of runes (compared with Lean's own encoder in C66).
* `math.Floor/Round/Modf`, conversions float64 <-> int (amd64 result for out-of-range values), integer division.
* `time.Date` on dates (days from civil date, proved against a day-by-day calendar in C31).
* `fmt.Sprintf` of a float with the verbs `%w.pf` and `%w.pE` (`Model/GoFloat`, after `strconv/ftoa.go` and `fmt/format.go`); only
  C88 to C90 use it, through the hypothesis `GoPrints ext`; its rounding is proved against the exact value of the float.
* `strconv.ParseFloat` on decimal numerals (`Model/GoParse`, after `strconv/atof.go`: its result is modelled as core's correctly
  rounded division, not its fast paths; other texts are left open), used by C91, C92 and C94 through the hypothesis `GoParses ext`.
* `strconv.FormatFloat` with the shortest digits (`'f'`, `'g'`) and with six digits, and `fmt.Sprint` of a float
  (`Model/GoShort`, after `roundShortest` of `strconv/ftoa.go`), used by C92 to C94 through the hypothesis `GoShort ext`.
* `Time.Format` in UTC (`Model/GoTime`, after `nextStdChunk`, `appendFormat`, `absDate` of Go 1.17 and later); only C86 and
  C87 use it, through the hypothesis `ext.timeFormat = goFormat`; its calendar is proved against the one of C31.
* `encoding/xml`: `RawToken` of a strict decoder without entities or `CharsetReader` (`Model/GoXml`, after `xml.go`): names, attributes,
  text, references, CDATA, comments, instructions, directives. Left open in it: the Unicode tables of letters in names and names
  with odd colons (`XmlTables`). Two proofs tie it down: enough steps are always enough, and C95.
* `path.Join/Dir/Base/Clean` as used by xlsx, `filepath.Base` and the file name arithmetic of grate2tsv.
* `bytes.Buffer` writes, `io.ReadFull`, `binary.Read` of little-endian structures, `bytes.Reader.Seek`.
* `sort.Slice` as "any permutation sorted by the key" (it is not stable); `map` iteration as "any permutation".
* channels, `sync.WaitGroup`, `sync.Mutex` as transitions.

Left open (parameters; the theorems hold for every behaviour unless a hypothesis says otherwise):

* record `Ext`: `strconv.ParseFloat`, `FormatFloat`, `fmt.Sprintf` of floats, `time.Format` (but see above), `fmt.Sscanf`;
* C76 alone assumes (`Spec.Prints`) that these print at least one byte for a number or a time;
* MD5 and the RC4 key stream (only "digests have 16 bytes" is assumed; `Model/GoCrypto` has the functions themselves, for
  which this holds, checked against published test vectors and used in examples);
* `encoding/csv` (a sequence of results), `archive/zip` (a list of named entries with their bytes; C140 and C141 use
  `Model/GoZip`, a model of its reader that leaves `compress/flate`, `hash/crc32` and the Zip64 extension open),
  the file system (file contents are given), `url.Parse`.

## 6. Not modelled

* Debug logging (`grate.Debug`, `log.Println`), `String` methods used only by it, profiling flags, flag parsing.
* Memory exhaustion, except that `make` with an absurd size (2^47 and more) panics as in Go.
* `sync.Pool` of records (xls), except in `Model/RecPool` (C101): elsewhere records are fresh; data races other than those of
  `cmd/grate2tsv` and of that pool.
* Sharing between slices where the code never writes through them; where it does (`simpleFile.Strings` rows,
  `rec.Data` capacities) it is modelled.
* grate2tsv: a panic inside `processFile` (kills the process) except for C123, `log.Fatal`, failing writes of the report, errors of `Close`.
* NaN payloads (canonicalised) and the sign of a zero returned by `math.Round`.
* A nil `*Formatter` receiver.

## 7. Where properties are false of the code

Each is a theorem with a concrete witness (names in MANIFEST.json, usually `Cxx_counterexample`); what remains true
is the `_partial` theorem beside it. In short:

* **Sources.** C07 `OpenCSV` never succeeds (the detection loop ends in an error even for a good file).
  C03 `errors.Is` sees only the second wrapped error.
* **Sheets.** C14 text or a boolean under a date format becomes a "date" cell; C15 `Scan` does not return
  `ErrInvalidScanType`; C17 a sheet with only A1 is "empty"; C18 `Set`/`SetURL` are off by one and crash on never-written cells; C11 negative sizes.
* **Cells.** C19 `NewCell(uint)` above the int64 range becomes negative; C21 `Equal` compares integers as floats;
  C22 a number equals unparsable text, `Less` on times crashes.
* **Formats.** C25 `Apply` on an unknown number calls a nil function; C30 percent formats ignore the factor for
  integers and truncate floats (0.29 is 28%); C70 custom `000` shows no zeros, quoted text with `e` switches to exponents,
  `0` cuts off instead of rounding; C71 custom `h:mm` and `mm:ss` show the month, `dddd` becomes `Mon2ay`, `AM/PM` and
  `[h]` are not understood, field letters in quotes are replaced; C72 a quoted semicolon splits the format; C73
  built-in formats 36 and 50 show the day for the month; C32 numbers below 1e-9 become 1/1000000000 whatever the digit limit.
* **Displayed text.** C74 text under a number format becomes 0 (`Total` under `#,##0`), under a date format an error
  message, the empty text under `@` is `<nil>`; C75 a formula's text under `#,##0` gets separators (`To,tal`);
  C76 the empty text under formats with separators or parentheses crashes `Apply` and `Strings`.
* **Numbers.** C88 percents are rounded twice (0.00125 shows `0.12%`), formats without decimals cut off, infinities show as `+,Inf`;
  C89 negative amounts show as `-1,234` (41, 43) and `$(-1,234)` (42, 44); C90 `##0.0E+0` shows 12345 as `1.2E+04`.
  C93 under General 1234567.8912 shows `1.23457e+06` and -1234567.8912 `-1.2345678912e+06`; C94 under `@` 5551234 shows `5.551234e+06`.
* **Dates.** C86 format 20 shows `09:05` for 9:05, formats with text in quotes show the quotes, `[h]` is a twelve-hour
  clock, `.0` drops zeros, a custom `AM/PM` becomes `AM/PM` or `AM/AM`, `mmmmm` shows three letters; C87 the fraction of
  a day is cut off, so ten o'clock is shown as 09:59.
* **Compound files.** C34 two seeks crash; C36 only the first mini FAT sector is loaded; C37 a cyclic DIFAT never ends,
  truncated FAT sectors crash; C39 only the first directory sector (four entries) is read.
* **Encryption.** C41 the final record without data is dropped.
* **xls.** C43 a cut record header is dropped silently; C46 one legal split of rich strings is refused; C48 RK integers
  divided by 100 are 0; C49 formula texts (8-bit non-ASCII, long 16-bit); C50 placeholders for the declared size of
  empty sheets; C51 nested embedded blocks; C52 a location replaces the target; C53 crashes on malformed
  streams; C54 the 1904 flag is never used.
* **xlsx.** C57 `applyNumberFormat="false"` and ids above 32767; C58 white space inside cells, several runs,
  hyperlinks over values, comments in values; C61 absolute workbook target; C62 ten kinds of crashes (an empty CDATA section in a
  boolean); C96 parts in UTF-16 are refused; C97 phonetic runs are shown after the string (東京トウキョウ), white space between
  elements too; C98 `_x000D_` is shown as such; C99 `date1904` is ignored; C100 cells without `r` are dropped.
* **Sources.** C102 `Get` of a sheet of a closed xls workbook crashes; C103 no opener closes the file of the compound document reader, and a
  declined or failed xlsx.Open leaves its file open; C104 `Strings` of a text source returns the row itself; C105 a Dimensions
  record of an xls sheet has as many cells allocated as it says, without a limit; C106 sheets with A1 alone count as empty and
  grate2tsv writes nothing for them, and a dialog sheet crashes it.
* **Opening files.** C80 the text format takes comma separated files and gives one field per line; C81 images and
  compound documents without a workbook open as text; C77 so does an xls file whose `Workbook` stream is not among the
  first four directory entries.
* **Rows.** C84 `Resize` makes one row too many (`rows >= len`), so every sheet ends with a blank row.
* **Reading again.** C85 `Get` of an xlsx or text source returns the one collection there is, with its cursor; a sheet
  read to its end cannot be read again.
* **grater.** C82 for a dialog sheet `Get` returns a nil sheet and no error, and the command crashes.
* **grate2tsv.** C64 no worker on a one-CPU machine; C68 output names collide; C69 reported columns are one too few.
* **C107.** If one output of a file cannot be created, `grate2tsv` drops the report of the sheets of that file it has already
  written: the report shows the error only.
* **C108.** `Open` hangs on a compound file of 1024 bytes with a cyclic DIFAT chain, and crashes on truncated FAT sectors and on
  streams that begin at the very end of the file.
* **C109.** A million under the Text format is `1000000` if stored as an integer and `1e+06` if stored as a float; under General
  numbers of twelve digits differ in the same way.
* **C110.** An error value in a cell with a number format is shown as itself from an xls file, and as `0` from an xlsx file.
* **C111.** Lines of 64 KiB are written but cannot be read again; a ragged text file can lose, with its blank rows, what made it
  recognisable, so that the output of `grate2tsv` does not open.
* **C119.** With two parts of shared strings (or two of styles) the numbering of the strings depends on the order in which
  Go ranges over the map of relationships (`/repo/xlsx/xlsx.go:105-130`): the same cell of the same file can be one string in one
  run and another in the next (`C119_counterexample`). Excel writes one part of each.
* **C121.** A slice expression may go beyond the length of a slice up to its capacity. A Dimensions record with fewer than twelve
  bytes is therefore no error: `/repo/xls/sheets.go:80-85` reads the size of the sheet from the bytes behind the record, the header
  of the next records. If these belong to the next sheet, the size of one sheet depends on another (`C121_counterexample`: 16 or 17
  columns).
* **C122.** The text of a formula in two records (String and Continue) with wide characters makes `/repo/xls` crash
  (`C49_wide_counterexample`); the same text in one record does not.
* **C123.** `grate2tsv x/a.xls y/a.xls` writes both to `results/../../a.S.tsv`; with both open at once the shorter is written over the
  start of the longer and leaves a line that is in neither file. A panic in one file ends the program before the outputs of others are
  flushed, though their lines are in the report already.
* **C124.** `/repo/xls/cfb/cfb.go:295` and `:330` slice a sector up to the capacity of the buffer of `ioutil.ReadAll`, not its length (the check before
  only compares the beginning of the sector with the length). If the end of the last sector is missing, it is read from the spare
  capacity, which holds zeros: cells get other values without an error. A file cut off in its header is no xls file, and the text
  format takes it.
* **C125.** `/repo/xlsx` reads parts with `RawToken`, which does not check that elements are closed, so that a part that is cut off
  after a tag or in a text is complete for it. `/repo/xlsx/sheets.go:34-50` ignores all errors of the relationships of a sheet. An
  archive without `_rels/.rels` is "not in this format" (`/repo/xlsx/xlsx.go:67-69`), and the text formats take any file.
* **C126.** `/repo/xlsx/workbook.go:60-97` does not read the attribute `state`, so that hidden sheets are listed (and exported by
  grate2tsv), unlike those of xls files.
* **C127.** `/repo/xls/xls.go:48-50` returns a field that no code sets, so that `IsProtected` is false for every workbook.
* **C129.** `/repo/xls/sheets.go:265-266` and `:294` copy the bytes of formula results in 8-bit form, which are Latin-1, and
  `/repo/xls/hyperlinks.go:107-128` those of paths; `addCommas` (`/repo/commonxl/fmt.go`) counts bytes, so that a separator can
  be put into a character.
* **C130.** Links do not leave the values of cells alone. In xlsx sheets the value of a linked cell is replaced by the
  target of the link; a link inside the workbook (it has a location but no relationship) replaces it by nothing, and
  Strings then gives the text `<nil>` (`C130_xlsx_counterexample`). In xls sheets it is replaced by the display text and the
  target, the other cells of the link by markers, and URL gives nothing (`C130_xls_counterexample`).
* **C131.** A document of a word processor opens as a workbook without sheets: the opener follows the relationship to the main
  document without looking at its content type (`C131_document_counterexample`, `C131_witness`). Archives without `_rels/.rels`
  (OpenDocument files) are left to the text readers, which take every file of at most 25 lines
  (`C131_archive_counterexample`). Packages without a relationship to a main document get an error of their own; workbooks in
  the strict form of the standard, which has other relationship types, are among them (`C131_package_partial`).
* **C132.** The text of a formula is put in the cell, and then replaced by that of the value, if the value has a text. Formulas
  with the empty text as the result (which spreadsheet programs write as `<v></v>`) and formulas without a stored result (as
  written by libraries that do not compute) are therefore given as the value of the cell (`C132_counterexample`;
  `C132_asValues_counterexample` for all worksheets).
* **C133.** For cells with a format that the workbook defines, `Formats` gives the number of the format in decimal digits, not its
  code (`C133_custom_counterexample`): the codes are dropped when the formats are added.
* **C134.** Numbers in cells with a format for whole numbers are cut off: 2.75 shown as `#,##0` is the whole number 2 for `Scan`, as
  2.25 is, and `Types` gives `integer` (`C134_integer_counterexample`); a text in such a cell is 0; an empty text in a cell with the
  format `@` is the text `<nil>` (`C134_counterexample`). The same holds of all formats without decimals that
  workbooks define: 0.25 with the format `0%` is the whole number 0 (`C134_percent_counterexample`).
* **C135.** Definitions of numbers that the built-in tables have are ignored (`C135_reserved`, `C135_xlsx_reserved`). Spreadsheets write
  definitions for 41 to 44 in the currency of the user: amounts in euros with the number 42 are shown in dollars
  (`C135_counterexample`). Other programs number their formats from 59 on, as in `testdata/basic2.xlsx`: 0.01 is shown as `0`.
* **C136.** The results of `Write` and `Flush` are dropped (`cmd/grate2tsv/main.go:95`, `:252-256`): on a full disk the report counts rows
  that are in no file, with `-` for the error (`C136_unreported`, `C136_counterexample`). Checking the result of `Flush` would be enough
  (`C136_known`).
* **C137.** Names and messages are printed with `%s` between tabs (`cmd/grate2tsv/main.go:143`, `:153`): one unreadable file whose name has
  tabs and a line break gives the report of two others (`C137_counterexample`). The cells of the outputs are tidied; the report is not.
* **C138.** The cleaned text is stored into the row only under `-w` (`cmd/grate2tsv/main.go:235-241`): with `-w=false`, `-r` has no effect
  (`C138_ignored`), and a cell `a<TAB>b` is written as two cells (`C138_counterexample`).
* **C139.** A cell written with the empty text has the type `blank` and the value `nil`, so that no variable can take it, while a cell never
  written can be scanned into a string (`C139_blank_counterexample`). `Scan` of texts wants `*int` where the documentation says `*int64`,
  and all columns; `Scan` of sheets crashes with more variables than columns (`C139_differ_counterexample`).
* **C141.** Go's reader takes a checksum of zero without a data descriptor for none, so parts of such archives are read unchecked
  (`C141_counterexample`).
* **C142.** The checksum of zip archives notices every change within four consecutive bytes, but any five bytes can be replaced without being noticed (`C142_five_counterexample`). This is a limit of the format, not of the code.
* **C143.** Merged regions are cut off at the last row and column that the dimension element gives (sheets.go:154-159), which are 0 if the element is missing, as it is in files of programs that write sheets row by row. Then no merged region is marked, and no error is reported (`C143_counterexample`).
* **C144.** `Put` converts every value to the kind of its number format: TRUE under `0%` is shown as 100%, and an error value of an xlsx file under `#,##0` as 0, as if the formula had given 0. The xls reader avoids this for errors by dropping the format.
* **C145.** Merged regions and hyperlinks that end in column IV (0xFF) or row 65536 (0xFFFF) are taken to end with the declared size (sheets.go:337-342, 395-400), also if they are real regions of these columns; hyperlinks that begin outside of the declared size are dropped without an error (sheets.go:329-336).
* **C146.** Cells of the type `d` (ISO 8601) are taken for texts (sheets.go:81-82 only logs them). Under a date format they are shown as `MUST BE time.Time OR numeric TO FORMAT CORRECTLY`, for every date; their type is "date", but Scan into a time fails.
* **C147.** White space after the value of a cell (`<v>1</v>` and a line end before `</c>`) replaces the value (sheets.go:66-105 takes every character data in a cell for its value): TRUE becomes FALSE, a shared string becomes the first one, a number becomes the white space. In the table of strings white space between `si` and `t` becomes part of the string (workbook.go:189-190).
* **C148.** Elements are recognised by local name only: a `numFmt` of a conditional format (inside `dxf`) is taken for a definition of the workbook, and a `c` of an extension for a cell. C148 leaves such names out.
* **C149.** A record that is cut off is read beyond its end, so the record behind it, which may be about layout only, can change a cell (as in C121).
* **C150.** As in C121: an xls record that is cut off is read beyond its end, so what is behind the sheet in the file can matter.
* **C151.** `OpenTSV` (simple/tsv.go:15-58) does not remove a byte order mark: the first field of the first row begins with the bytes EF BB BF.

## 8. How the theorems were tested

`seeded/LOG.jsonl` has one line per wrong program: a realistic bug put into a scratch copy of a model definition, the
claim that it breaks, and the theorems that stopped proving (or, for a survivor, the theorem that was tightened). A bug is
counted as caught only if a theorem in `Props/` or a lemma it needs fails to build.

`AXIOMS.md` (by `tools/gen_axioms.py`) lists the axioms of every theorem in the manifest.

## 9. The model run on the repository's own tests

`tools/conformance.py` runs the model on the inputs of the repository's tests (a few seconds after `lake build`). This tests
how faithful the model is. It proves nothing, no theorem rests on it, and the Go code itself is not run. The head of the
script lists what it simplifies: Python unpacks the zip archives, one loop is rewritten as a tail recursion, and the
library functions left open are filled in by the models of `Model/Go*.lean`.

- `TestBasic` of both packages (`basic.xls`, `testing.xls`, `basic.xlsx`): every cell agrees with the `.tsv` file (28, 32, 28).
- `TestAllFiles`: every workbook in `testdata` opens, and every row of every sheet is shown without a panic.
- `TestFractions`, `TestBoolFormats`, `TestSliceReader`: the model agrees with every expectation.
- `TestCommas`: 13 of 56 expectations fail. The test wants numbers as `fmt.Sprint` prints them (`1e+06` for 1000000, and
  `100,000.12345`), while `identFunc` (`/repo/commonxl/fmt.go:68-76`) keeps whole numbers of up to 11 characters and rounds
  the others to six digits. The model follows the source; by reading, the repository's test fails at `100000.12345`.
- The pairs that the repository has commented out as TODO differ in the model too. `basic2` shows `C135_reserved`
  (its formats have the numbers 59 to 61, so the workbook's own codes are dropped and 0.01 is shown as `0`). `multi_test`
  shows C132 (a cell reads `E5+E6`) and the panics of `Equal` on dates.
- `TestHeader` to `TestHeader4` open files that are not in `testdata`; they were not run.

`tools/conformance_zip.py` runs the model of the zip reader on the three xlsx files of the repository: the 30 members, their
headers and the offsets of their data agree with Python's `zipfile`.
