import Verif.Model.Open

/-! # `Close`, the files that are open, and the memory of the slices returned by `Strings` -/

namespace Grate.Api

open Grate

/-- `Close`, `/repo/xls/xls.go:162-173`, `/repo/xlsx/xlsx.go:34-42`, `/repo/simple/simple.go:26-28`: the source afterwards.
(The error of closing the file of an xlsx document is not modelled.) -/
def Source.close : Source → Source
  | .xls b => .xls b.close
  | .xlsx a d => .xlsx a d.close
  | .text f => .text f

/-! ### Open files -/

/-- What happens to files of the operating system: a file is opened or closed. (The finalizer of a file that nobody refers to
closes it when the garbage collector finds it; that is not an event of the program.) -/
inductive FileEv where
  | opened
  | closed
  deriving DecidableEq

/-- `cfb.Open`, `/repo/xls/cfb/interface.go:10-21`, called by `/repo/xls/xls.go:53`: nothing closes the file, on any path. -/
def xlsFiles (w : World) (fn : Bytes) : List FileEv :=
  match w.files fn with
  | .error _ => []
  | .ok _ => [.opened]

/-- `xlsx.Open`, `/repo/xlsx/xlsx.go:44-133`: the file is kept in the document; the returns with an error do not close it. -/
def xlsxFiles (w : World) (fn : Bytes) : List FileEv :=
  match w.files fn with
  | .error _ => []
  | .ok _ => [.opened]

/-- `OpenTSV` and `OpenCSV`, `/repo/simple/tsv.go:16-20`, `/repo/simple/csv.go:15-19`: `defer f.Close()`. -/
def textFiles (w : World) (fn : Bytes) : List FileEv :=
  match w.files fn with
  | .error _ => []
  | .ok _ => [.opened, .closed]

/-- The file events of an opener. -/
def openerFiles (w : World) (fn : Bytes) (o : Entry Source) : List FileEv :=
  if o.name = "xls" then xlsFiles w fn
  else if o.name = "xlsx" then xlsxFiles w fn
  else textFiles w fn

/-- The file events of `grate.Open`: those of the openers that it calls. -/
def openFiles (w : World) (t : List (Entry Source)) (fn : Bytes) : List FileEv :=
  (openTrace fn t).1.flatMap (openerFiles w fn)

/-- The file events of the first `Close`: `d.f.Close()`, `/repo/xlsx/xlsx.go:41`. -/
def Source.closeFiles : Source → List FileEv
  | .xlsx _ _ => [.closed]
  | _ => []

/-! ### The slices that `Strings` returns -/

/-- The row of the source whose memory is the slice that `Strings` returns: for text files the row itself is returned
(`/repo/simple/simple.go:43-45`), sheets make a new slice (`/repo/commonxl/sheet.go:130`). -/
def Coll.stringsRow : Coll → Option Nat
  | .text f => some f.iterRow.toNat
  | _ => none

/-- The assignment `res[j] = v` to such a slice. -/
def Coll.assign (c : Coll) (res : Option Nat) (j : Nat) (v : Bytes) : Coll :=
  match c, res with
  | .text f, some i => .text { f with rows := f.rows.modify i (·.set j v) }
  | c, _ => c

end Grate.Api
