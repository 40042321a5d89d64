import Verif.Spec.Text
import Verif.Spec.Decimal
import Verif.Model.Grate2tsv

/-! # Independent specification of the report of `grate2tsv` (C137) -/

namespace Grate.Spec

open Grate

/-- The names of the columns. -/
def reportColumns : List Bytes := [lit "time", lit "filename", lit "sheet", lit "rows", lit "columns", lit "errors"]

/-- The row of the report for a line of the log written at a time; `msg` gives the text of errors. -/
inductive ReportRow (msg : GoErr → Bytes) : Bytes × G2t.LogLine → List Bytes → Prop
  /-- a file that could not be processed -/
  | fatal (time fn : Bytes) (e : GoErr) : ReportRow msg (time, .fatal fn e) [time, fn, lit "-", lit "-", lit "-", msg e]
  /-- a sheet -/
  | good {time fn sheet r c : Bytes} {counts : G2t.Counts} : Numeral r counts.numRows → Numeral c counts.numCols →
      ReportRow msg (time, .sheet ⟨fn, sheet, counts, none⟩) [time, fn, sheet, r, c, lit "-"]
  /-- a sheet that could not be read -/
  | bad {time fn sheet r c : Bytes} {counts : G2t.Counts} (e : GoErr) : Numeral r counts.numRows → Numeral c counts.numCols →
      ReportRow msg (time, .sheet ⟨fn, sheet, counts, some e⟩) [time, fn, sheet, r, c, msg e]

/-- A text that fits into a cell of a tab-separated table. -/
def OneCell (s : Bytes) : Prop := (9 : UInt8) ∉ s ∧ (10 : UInt8) ∉ s ∧ (13 : UInt8) ∉ s

/-- The texts that a line of the log brings into the report. -/
def lineTexts (msg : GoErr → Bytes) : Bytes × G2t.LogLine → List Bytes
  | (time, .fatal fn e) => [time, fn, msg e]
  | (time, .sheet s) => [time, s.filename, s.sheet] ++ (s.err.map msg).toList

end Grate.Spec
