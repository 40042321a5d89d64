import Verif.Model.Grate2tsv

/-! # Model of the report (`results.txt`) of `/repo/cmd/grate2tsv/main.go` as bytes -/

namespace Grate.G2t

open Grate

/-- The first line, `main.go:113`. -/
def reportHeader : Bytes := lit "time\tfilename\tsheet\trows\tcolumns\terrors\n"

/-- Opening the report, `main.go:103-114`: the file is created or kept, the position is its end, and an empty file gets the first line.
`old` is its contents (`[]` if it did not exist). -/
def startReport (old : Bytes) : Bytes := if old.length = 0 then old ++ reportHeader else old

/-- A line, `main.go:141-155`: `fmt.Fprintf` with `%s` and `%d`. `msg` is the method `Error`, `now` the time the file was begun. -/
def lineBytes (msg : GoErr → Bytes) (now : Bytes) : LogLine → Bytes
  | .fatal fn e => now ++ [9] ++ fn ++ lit "\t-\t-\t-\t" ++ msg e ++ [10]
  | .sheet s =>
    let e := match s.err with
      | some e => msg e
      | none => lit "-"
    now ++ [9] ++ s.filename ++ [9] ++ s.sheet ++ [9] ++ decNat s.counts.numRows ++ [9] ++ decNat s.counts.numCols ++ [9] ++ e ++ [10]

/-- The report after a run of the program that writes these lines. -/
def runReport (msg : GoErr → Bytes) (old : Bytes) (lines : List (Bytes × LogLine)) : Bytes :=
  lines.foldl (fun f l => f ++ lineBytes msg l.1 l.2) (startReport old)

end Grate.G2t
