import Verif.Model.Registry
import Verif.Model.Simple
import Verif.Model.XlsSheet
import Verif.Model.Xlsx
import Verif.Model.MakeFormat

/-! # The shipped formats behind `grate.Open`: sources and collections

The interfaces `grate.Source` and `grate.Collection` (`/repo/grate.go:12-52`) with the three kinds of sources that are
shipped, and the four openers as they are registered (`/repo/xls/xls.go:23`, `/repo/xlsx/xlsx.go:17`,
`/repo/simple/tsv.go:11`, `/repo/simple/csv.go:10`). -/

namespace Grate.Api

open Grate

/-- What is outside the program: the files, and the parts of Go's library that are not modelled. -/
structure World where
  /-- `os.Open` and reading the file: the error of opening it, or its contents -/
  files : Bytes → Except GoErr Bytes
  /-- `zip.NewReader` on the contents of a file -/
  zip : Bytes → Except GoErr Xlsx.Archive
  /-- the records of `encoding/csv` and how they end -/
  csv : Bytes → List (List Bytes) × Simple.CsvEnd
  /-- MD5 and RC4 -/
  prims : Crypto.Prims
  /-- the bytes in the spare capacity of the buffer of `ioutil.ReadAll` -/
  cap : Bytes
  /-- the same for the other buffers -/
  spare : Bytes
  /-- steps for the loops over compound files -/
  fuel : Nat
  /-- the buffer sizes of `io.ReadAll` -/
  bufs : List Nat
  /-- the order of ranging over a map of column counts -/
  iter : List (Nat × Nat) → List (Nat × Nat)
  /-- the order of ranging over a map of part names -/
  order : List Bytes → List Bytes

/-- A source: a `*xls.WorkBook`, a `*xlsx.Document` with its archive, or a `*simple.simpleFile`. -/
inductive Source where
  | xls (b : Xls.Book)
  | xlsx (a : Xlsx.Archive) (d : Xlsx.Doc)
  | text (f : Simple.File)

/-- `xls.Open`, `/repo/xls/xls.go:52-77`. Running out of fuel stands for not returning and is a panic here. -/
def xlsOpen (w : World) (fn : Bytes) : GoRes Source :=
  match w.files fn with
  | .error e => .err e
  | .ok c =>
    match Xls.openFile w.prims makeFormatter w.spare w.fuel w.bufs ⟨c, w.cap⟩ with
    | none => .panic
    | some r => do pure (.xls (← r))

/-- `xlsx.Open`, `/repo/xlsx/xlsx.go:44-133`. -/
def xlsxOpen (w : World) (fn : Bytes) : GoRes Source :=
  match w.files fn with
  | .error e => .err e
  | .ok c =>
    match w.zip c with
    | .error e => .err (wrapErr [e, .notInFormat])
    | .ok a => do pure (.xlsx a (← Xlsx.openFile makeFormatter w.order (.ok a)))

/-- `simple.OpenTSV`, `/repo/simple/tsv.go:15-58`. -/
def tsvOpen (w : World) (fn : Bytes) : GoRes Source :=
  match w.files fn with
  | .error e => .err e
  | .ok c => do pure (.text (← Simple.openTSV w.iter fn (some c)))

/-- `simple.OpenCSV`, `/repo/simple/csv.go:14-66`. -/
def csvOpen (w : World) (fn : Bytes) : GoRes Source :=
  match w.files fn with
  | .error e => .err e
  | .ok c => do pure (.text (← Simple.openCSV w.iter fn (some (w.csv c))))

/-- The registered formats with their priorities. -/
def formats (w : World) : List (Entry Source) :=
  [⟨"xls", 1, xlsOpen w⟩, ⟨"xlsx", 5, xlsxOpen w⟩, ⟨"tsv", 10, tsvOpen w⟩, ⟨"csv", 15, csvOpen w⟩]

/-- `List`, `/repo/xls/sheets.go:15-23`, `/repo/xlsx/xlsx.go:152-158`, `/repo/simple/simple.go:22-24`. -/
def Source.list : Source → List Bytes
  | .xls b => b.list
  | .xlsx _ d => d.list
  | .text f => f.list

/-- A collection: a `*commonxl.Sheet` (`nil` for a dialog of an xls file) or a `*simple.simpleFile`. -/
inductive Coll where
  | sheet (s : Sheet)
  | noSheet
  | text (f : Simple.File)

/-- `Get`, `/repo/xls/sheets.go:36-43`, `/repo/xlsx/xlsx.go:160-170`, `/repo/simple/simple.go:31-33`: the source
afterwards, and the collection or the error. (With an error the xlsx source also returns the part of the sheet it has
read; that is left out.) -/
def Source.get (ext : Ext) : Source → Bytes → GoRes (Source × Except GoErr Coll)
  | .xls b, n =>
    match b.get ext n with
    | .panic => .panic
    | .err e => .ok (.xls b, .error e)
    | .ok none => .ok (.xls b, .ok .noSheet)
    | .ok (some s) => .ok (.xls b, .ok (.sheet s))
  | .xlsx a d, n =>
    match d.get ext a n with
    | .panic => .panic
    | .err e => .ok (.xlsx a d, .error e)
    | .ok (d', _, some e) => .ok (.xlsx a d', .error e)
    | .ok (d', i, none) =>
      match d'.sheets[i]? with
      | some ⟨_, _, some (s, _)⟩ => .ok (.xlsx a d', .ok (.sheet s))
      | _ => .panic
  | .text f, _ => .ok (.text f, .ok (.text f))

/-- The source after its collection named `n` has been used: `c` is what it has become. Collections of an xls source
are copies; those of the others are part of the source. -/
def Source.used (src : Source) (n : Bytes) (c : Coll) : Source :=
  match src, c with
  | .xlsx a d, .sheet s =>
    match d.find n with
    | some i =>
      match d.sheets[i]? with
      | some x => .xlsx a { d with sheets := d.sheets.set i { x with state := x.state.map (fun p => (s, p.2)) } }
      | none => .xlsx a d
    | none => .xlsx a d
  | .text _, .text f => .text f
  | src, _ => src

/-- `Next`; on the nil sheet it crashes. -/
def Coll.next : Coll → GoRes (Coll × Bool)
  | .sheet s => .ok (.sheet s.next.1, s.next.2)
  | .noSheet => .panic
  | .text f => .ok (.text f.next.1, f.next.2)

/-- `Strings`. -/
def Coll.strings (ext : Ext) : Coll → GoRes (List Bytes)
  | .sheet s => s.strings ext
  | .noSheet => .panic
  | .text f => f.strings

/-- `Types`. -/
def Coll.types : Coll → GoRes (List Bytes)
  | .sheet s => s.types
  | .noSheet => .panic
  | .text f => f.types

end Grate.Api
