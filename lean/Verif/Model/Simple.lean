import Verif.Model.Registry

/-! # Model of `/repo/simple/` (TSV / CSV sources) -/

namespace Grate.Simple

open Grate

/-- `simpleFile`, `/repo/simple/simple.go:15-19`. -/
structure File where
  filename : Bytes
  rows : List (List Bytes)
  iterRow : Int

/-! ### Reading lines: `bufio.Scanner` with the default `ScanLines` split (standard library) -/

/-- Raw lines of a file: pieces ended by `\n`, plus a last unterminated non-empty piece. -/
def rawLines : Bytes → List Bytes
  | [] => []
  | c :: cs =>
    if c == 10 then [] :: rawLines cs
    else
      match rawLines cs with
      | [] => [[c]]
      | l :: ls => (c :: l) :: ls

/-- `dropCR` of `bufio.ScanLines`. -/
def dropCR (l : Bytes) : Bytes :=
  match l.getLast? with
  | some 13 => l.dropLast
  | _ => l

/-- `bufio.MaxScanTokenSize`. -/
def maxTokenSize : Nat := 65536

/-- All tokens of the scanner, or `ErrTooLong` if some raw line does not fit the buffer together
with its terminator. (Read errors of the operating system are not modelled.) -/
def scanLines (content : Bytes) : GoRes (List Bytes) :=
  let raw := rawLines content
  if raw.any (fun l => maxTokenSize ≤ l.length) then .err (.msg "bufio.Scanner: token too long")
  else .ok (raw.map dropCR)

/-! ### Detection -/

/-- `ncols[k]++` on the map, `/repo/simple/tsv.go:31`, as an association list with unique keys. -/
def bump (k : Nat) : List (Nat × Nat) → List (Nat × Nat)
  | [] => [(k, 1)]
  | (k', n) :: m => if k = k' then (k', n + 1) :: m else (k', n) :: bump k m

/-- The map after reading all rows, `/repo/simple/tsv.go:29-34`. -/
def colCounts (rows : List (List Bytes)) : List (Nat × Nat) :=
  rows.foldl (fun m r => bump r.length m) []

/-- `float64(n)/float64(total) > 0.8`, `/repo/simple/tsv.go:46`. -/
def over80 (n total : Nat) : Bool := decide (f64OfNat n / f64OfNat total > 0.8)

/-- One iteration of the detection loop, `/repo/simple/tsv.go:42-52`. -/
def detectStep (total : Nat) (looksGood : Nat) (e : Nat × Nat) : Nat :=
  if e.1 ≤ 1 then looksGood
  else if e.2 > 10 && over80 e.2 total then 2
  else if e.2 > 25 && looksGood == 0 then 1
  else looksGood

/-- The detection loop over the map entries in the order given. -/
def detect (total : Nat) (entries : List (Nat × Nat)) : Nat :=
  entries.foldl (detectStep total) 0

/-- `OpenTSV`, `/repo/simple/tsv.go:15-58`. `iter` is the (arbitrary) order in which the Go runtime
iterates the map; `file` is the file content, `none` when the file cannot be opened. -/
def openTSV (iter : List (Nat × Nat) → List (Nat × Nat)) (filename : Bytes)
    (file : Option Bytes) : GoRes File :=
  match file with
  | none => .err (.msg "open: no such file")
  | some content => do
    let lines ← scanLines content
    let rows := lines.map (splitByte 9)
    if detect rows.length (iter (colCounts rows)) = 1 then .err .notInFormat
    else .ok ⟨filename, rows, -1⟩

/-- How the `encoding/csv` reader stops producing records (`s.Read` returns a non-nil error). -/
inductive CsvEnd where
  /-- `io.EOF` : the whole file was parsed -/
  | eof
  /-- a `*csv.ParseError` -/
  | parseError
  /-- any other (read) error -/
  | other (s : String)

/-- The Go error value for each way the CSV reader stops. -/
def CsvEnd.toErr : CsvEnd → GoErr
  | .eof => .eof
  | .parseError => .msg "csv parse error"
  | .other s => .msg s

/-- `OpenCSV`, `/repo/simple/csv.go:14-66`. The CSV reader is represented by the records it
produces and the error it ends with; `file = none` when the file cannot be opened. The loop at
`csv.go:31-35` only ends with a non-nil error, so the code after the `if err != nil` block
(`csv.go:48-66`) is reached from no state. -/
def openCSV (iter : List (Nat × Nat) → List (Nat × Nat)) (filename : Bytes)
    (file : Option (List (List Bytes) × CsvEnd)) : GoRes File :=
  match file with
  | none => .err (.msg "open: no such file")
  | some (rows, e) =>
    let err : Option CsvEnd := some e
    match err with
    | some .parseError => .err (wrapErr [CsvEnd.parseError.toErr, .notInFormat])
    | some e =>
      if rows.length < 10 then .err (wrapErr [e.toErr, .notInFormat]) else .err e.toErr
    | none =>
      if detect rows.length (iter (colCounts rows)) = 1 then .err .notInFormat
      else .ok ⟨filename, rows, -1⟩

/-! ### The source / collection interface -/

/-- Position just after the last `/` (helper of `filepath.Base`). -/
def afterLastSlash : Bytes → Bytes
  | [] => []
  | c :: cs => if cs.any (· == 47) then afterLastSlash cs else if c == 47 then cs else c :: cs

/-- `filepath.Base` on Unix (standard library). -/
def basePath (p : Bytes) : Bytes :=
  if p = [] then [46]
  else
    let q := (p.reverse.dropWhile (· == 47)).reverse
    if q = [] then [47] else afterLastSlash q

/-- `List`, `/repo/simple/simple.go:22-24`. -/
def File.list (f : File) : List Bytes := [basePath f.filename]

/-- `Get`, `/repo/simple/simple.go:31-33`: the name is ignored. -/
def File.get (f : File) (_name : Bytes) : GoRes File := .ok f

/-- `Next`, `/repo/simple/simple.go:37-40`. -/
def File.next (f : File) : File × Bool :=
  ({ f with iterRow := f.iterRow + 1 }, decide (f.iterRow + 1 < f.rows.length))

/-- `t.rows[t.iterRow]`: panics outside the slice. -/
def File.row (f : File) : GoRes (List Bytes) :=
  if 0 ≤ f.iterRow then
    match f.rows[f.iterRow.toNat]? with
    | some r => .ok r
    | none => .panic
  else .panic

/-- `Strings`, `/repo/simple/simple.go:43-45`. -/
def File.strings (f : File) : GoRes (List Bytes) := f.row

/-- `Formats`, `/repo/simple/simple.go:48-54`. -/
def File.formats (f : File) : GoRes (List Bytes) := do
  let r ← f.row
  pure (r.map (fun _ => lit "General"))

/-- `Types`, `/repo/simple/simple.go:59-69`. -/
def File.types (f : File) : GoRes (List Bytes) := do
  let r ← f.row
  pure (r.map (fun v => if v = [] then lit "blank" else lit "string"))

/-- `IsEmpty`, `/repo/simple/simple.go:111-113`. -/
def File.isEmpty (f : File) : Bool := f.rows.length == 0

/-- A Scan destination: the pointed-to type with its current contents; `other` is a pointer to any
unsupported type. -/
inductive Dest where
  | bool (v : Bool)
  | int (v : Int)
  | float (v : Float)
  | str (v : Bytes)
  | time
  | other

/-- `strings.ToLower` restricted to ASCII. (No non-ASCII rune lower-cases to a letter occurring in
the five words compared against, so equality with them is unaffected.) -/
def toLower (s : Bytes) : Bytes := s.map (fun b => if 65 ≤ b && b ≤ 90 then b + 32 else b)

/-- `case "1", "t", "true", "y", "yes"`, `/repo/simple/simple.go:85`. -/
def truthy (s : Bytes) : Bool :=
  toLower s ∈ [lit "1", lit "t", lit "true", lit "y", lit "yes"]

/-- One iteration of the Scan loop, `/repo/simple/simple.go:82-105`: new destination contents and
the error returned at this point, if any. `parseFloat` is `strconv.ParseFloat(_, 64)`. -/
def scanOne (parseFloat : Bytes → Float × Option NumErr) (cell : Bytes) : Dest → Dest × Option GoErr
  | .bool _ => (.bool (truthy cell), none)
  | .int _ =>
    let r := parseInt 64 cell
    (.int r.1, r.2.map (fun _ => GoErr.msg "strconv.ParseInt"))
  | .float _ =>
    let r := parseFloat cell
    (.float r.1, r.2.map (fun _ => GoErr.msg "strconv.ParseFloat"))
  | .str _ => (.str cell, none)
  | .time => (.time, some (.msg "grate/simple: time.Time not supported"))
  | .other => (.other, some .invalidScanType)

/-- The Scan loop, `/repo/simple/simple.go:81-106`, over destinations paired with their cells. -/
def scanLoop (parseFloat : Bytes → Float × Option NumErr) :
    List (Bytes × Dest) → List Dest × Option GoErr
  | [] => ([], none)
  | (c, d) :: rest =>
    match scanOne parseFloat c d with
    | (d', some e) => (d' :: rest.map (·.2), some e)
    | (d', none) =>
      let r := scanLoop parseFloat rest
      (d' :: r.1, r.2)

/-- `Scan`, `/repo/simple/simple.go:74-108`: destination contents afterwards, and the error. -/
def File.scan (parseFloat : Bytes → Float × Option NumErr) (f : File) (args : List Dest) :
    GoRes (List Dest × Option GoErr) := do
  let r ← f.row
  if r.length ≠ args.length then
    pure (args, some (.msg "grate/simple: wrong number of Scan destinations"))
  else pure (scanLoop parseFloat (r.zip args))

end Grate.Simple
