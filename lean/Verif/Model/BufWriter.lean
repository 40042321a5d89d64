import Verif.Model.Grate2tsv

/-! # Model of the writing of outputs by `/repo/cmd/grate2tsv/main.go`, on a disk that may refuse writes

`bufio.Writer` (standard library, `bufio.go`) between the loop over the rows (lines 231-259) and the file. Errors of `Close` (line 96, dropped as well) are not
modelled. -/

namespace Grate.G2t

open Grate

/-- The outcome of a write to a file: `none` if all bytes were written, or the number of bytes that were and an error (`os.File.Write`
returns an error whenever it writes less). -/
abbrev Fault := Option (Nat × GoErr)

/-- A file being written through a `bufio.Writer`: what is on the disk, the buffered bytes, the error that the writer keeps, and what
will become of the coming writes to the file (all of them succeed when the list has ended). -/
structure Writer where
  disk : Bytes
  buf : Bytes
  err : Option GoErr
  faults : List Fault

/-- `os.Create` and `bufio.NewWriter`, `main.go:221-227`. -/
def Writer.new (faults : List Fault) : Writer := ⟨[], [], none, faults⟩

/-- `os.File.Write(p)`: the bytes written, the error, and the coming outcomes. -/
def fileWrite (p : Bytes) : List Fault → Bytes × Option GoErr × List Fault
  | [] => (p, none, [])
  | none :: fs => (p, none, fs)
  | some (k, e) :: fs => (p.take k, some e, fs)

/-- `Flush` (standard library). -/
def Writer.flush (w : Writer) : Writer :=
  if w.err ≠ none then w
  else if w.buf = [] then w
  else
    let (q, e, fs) := fileWrite w.buf w.faults
    ⟨w.disk ++ q, w.buf.drop q.length, e, fs⟩

/-- The loop of `Write` (standard library) while the data does not fit into the buffer of `size` bytes, with the data that is left.
The buffer is empty after the first round, so two rounds are enough (`loop_ends`). -/
def Writer.writeLoop (size : Nat) : Nat → Bytes → Writer → Bytes × Writer
  | 0, p, w => (p, w)
  | fuel + 1, p, w =>
    if size - w.buf.length < p.length ∧ w.err = none then
      if w.buf = [] then
        let (q, e, fs) := fileWrite p w.faults
        writeLoop size fuel (p.drop q.length) ⟨w.disk ++ q, [], e, fs⟩
      else
        let n := size - w.buf.length
        writeLoop size fuel (p.drop n) ({ w with buf := w.buf ++ p.take n }).flush
    else (p, w)

/-- `Write(p)` (standard library); what it returns is not used by the program (`main.go:252-256`). -/
def Writer.write (size : Nat) (w : Writer) (p : Bytes) : Writer :=
  let (p, w) := writeLoop size 2 p w
  if w.err ≠ none then w else { w with buf := w.buf ++ p }

/-- The calls of `w.Write` for one row, `main.go:250-256`. -/
def rowCalls : (i : Nat) → List Bytes → List Bytes
  | _, [] => [[10]]
  | i, v :: vs => (if i ≠ 0 then [[9]] else []) ++ v :: rowCalls (i + 1) vs

/-- The calls of `w.Write` for the rows of a sheet and the counts, `main.go:231-259`. -/
def sheetCalls (fl : Flags) : Counts → List (List Bytes) → List Bytes × Counts
  | ps, [] => ([], ps)
  | ps, row :: rows =>
    let r := rowLoop fl 0 ps.numCols row
    if r.2.1 || !fl.skipBlanks then
      let rest := sheetCalls fl ⟨ps.numRows + 1, r.2.2⟩ rows
      (rowCalls 0 r.1 ++ rest.1, rest.2)
    else sheetCalls fl ⟨ps.numRows, r.2.2⟩ rows

/-- A sheet that is written out: the file after `Flush` and `Close` by the cleanup goroutine (lines 93-100), which drops the error of
`Flush`, and what is reported for it (lines 197-201, 260): `ps.Err` is only set when `Get` fails. -/
def exportSheet (fl : Flags) (size : Nat) (faults : List Fault) (fn s : Bytes) (rows : List (List Bytes)) : Writer × Stats :=
  let calls := sheetCalls fl ⟨0, 0⟩ rows
  ((calls.1.foldl (Writer.write size) (Writer.new faults)).flush, ⟨fn, s, calls.2, none⟩)

end Grate.G2t
