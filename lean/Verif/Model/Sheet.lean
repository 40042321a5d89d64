import Verif.Model.Cell
import Verif.Model.Registry

/-! # Model of `/repo/commonxl/sheet.go` -/

namespace Grate

/-- `Sheet`, `/repo/commonxl/sheet.go:12-19`. -/
structure Sheet where
  fmtr : Formatter
  numRows : Int
  numCols : Int
  rows : List (List Cell)
  curRow : Int

/-- `&Sheet{Formatter: f}`. -/
def Sheet.new (f : Formatter) : Sheet := ⟨f, 0, 0, [], 0⟩

/-- Extend one row with blank cells, `/repo/commonxl/sheet.go:28-32`. -/
def extendRow (cols : Int) (row : List Cell) : List Cell :=
  let n := cols - row.length
  if n ≤ 0 then row else row ++ List.replicate n.toNat .empty

/-- The loop at `/repo/commonxl/sheet.go:24-33` from index `i`. -/
def extendRows (rows cols : Int) : Nat → List (List Cell) → List (List Cell)
  | _, [] => []
  | i, r :: rs =>
    if (i : Int) > rows then r :: rs
    else extendRow cols r :: extendRows rows cols (i + 1) rs

/-- `Resize`, `/repo/commonxl/sheet.go:23-48`. -/
def Sheet.resize (s : Sheet) (rows cols : Int) : Sheet :=
  let rs := extendRows rows cols 0 s.rows
  let rows := if rows ≤ 0 then 1 else rows
  let cols := if cols ≤ 0 then 1 else cols
  -- `for rows >= len(s.Rows)`: append until the length is rows+1
  let rs := rs ++ List.replicate (rows + 1 - rs.length).toNat (List.replicate cols.toNat .empty)
  { s with curRow := 0, numRows := rows, numCols := cols, rows := rs }

/-- `s.Rows[row][col]`. -/
def Sheet.cell? (s : Sheet) (row col : Int) : Option Cell :=
  if 0 ≤ row ∧ 0 ≤ col then
    match s.rows[row.toNat]? with
    | some r => r[col.toNat]?
    | none => none
  else none

/-- `s.Rows[row][col] = c`: panics when the indexes are out of range. -/
def Sheet.store (s : Sheet) (row col : Int) (c : Cell) : GoRes Sheet :=
  match s.cell? row col with
  | none => .panic
  | some _ => .ok { s with rows := s.rows.modify row.toNat (fun r => r.set col.toNat c) }

/-- The four merge markers, `/repo/grate.go:94-104`. -/
def contCol : Bytes := lit "→"
/-- `EndColumnMerged` -/
def endCol : Bytes := lit "⇥"
/-- `ContinueRowMerged` -/
def contRow : Bytes := lit "↓"
/-- `EndRowMerged` -/
def endRow : Bytes := lit "⤓"

/-- Test at `/repo/commonxl/sheet.go:71`. -/
def isMarker (s : Bytes) : Bool := s == endRow || s == endCol || s == contRow || s == contCol

/-- Is the value one of the marker strings (`/repo/commonxl/sheet.go:70-71`)? -/
def GoVal.marker : GoVal → Bool
  | .str s => isMarker s
  | _ => false

/-- The cell built for a non-marker value, `/repo/commonxl/sheet.go:78-83`. -/
def typedCell (ext : Ext) (f : Formatter) (value : GoVal) (fmtNum : Nat) : GoRes Cell :=
  match f.getCellType fmtNum with
  | none => newCell value
  | some ct => if fmtNum = 0 then newCell value else newCellWithType ext f.mode1904 value ct

/-- `NewCell(value)` with its type replaced by `StaticCell`, `/repo/commonxl/sheet.go:72-73`. -/
def staticCell (value : GoVal) : GoRes Cell := do
  match ← newCell value with
  | .empty => .panic
  | .full v _ f u => pure (.full v .static f u)

/-- The cell `Put` stores for a value and a format number, `/repo/commonxl/sheet.go:70-84`. -/
def putCell (ext : Ext) (f : Formatter) (value : GoVal) (fmtNum : Nat) : GoRes Cell :=
  bif value.marker then staticCell value
  else do
    let c ← typedCell ext f value fmtNum
    c.setFormatNumber fmtNum

/-- In-place growth when a cell is outside the declared size, `/repo/commonxl/sheet.go:53-68`. -/
def Sheet.grow (s : Sheet) (row col : Int) : Sheet :=
  if row ≥ s.numRows ∨ col ≥ s.numCols then
    let nr := if row ≥ s.numRows then row + 1 else s.numRows
    let nc := if col ≥ s.numCols then col + 1 else s.numCols
    s.resize nr nc
  else s

/-- `Put`, `/repo/commonxl/sheet.go:51-85`. (In Go the index panic and a conversion panic can occur
in either order; both are `panic` here.) -/
def Sheet.put (ext : Ext) (s : Sheet) (row col : Int) (value : GoVal) (fmtNum : Nat) : GoRes Sheet := do
  let s := s.grow row col
  let c ← putCell ext s.fmtr value fmtNum
  s.store row col c

/-- `Set`, `/repo/commonxl/sheet.go:89-97`. -/
def Sheet.set (s : Sheet) (row col : Int) (v : Val) : GoRes Sheet :=
  if row > s.numRows ∨ col > s.numCols then .ok s
  else
    match s.cell? row col with
    | some (.full _ _ f u) => s.store row col (.full v .string f u)
    | _ => .panic

/-- `SetURL`, `/repo/commonxl/sheet.go:100-107`. -/
def Sheet.setURL (s : Sheet) (row col : Int) (link : Bytes) : GoRes Sheet :=
  if row > s.numRows ∨ col > s.numCols then .ok s
  else
    match s.cell? row col with
    | some c => do s.store row col (← c.setURL link)
    | none => .panic

/-- `Next`, `/repo/commonxl/sheet.go:111-117`. -/
def Sheet.next (s : Sheet) : Sheet × Bool :=
  if s.curRow + 1 > s.rows.length then (s, false) else ({ s with curRow := s.curRow + 1 }, true)

/-- `s.Rows[s.CurRow-1]`. -/
def Sheet.row (s : Sheet) : GoRes (List Cell) :=
  if 1 ≤ s.curRow then
    match s.rows[(s.curRow - 1).toNat]? with
    | some r => .ok r
    | none => .panic
  else .panic

/-- Filling `res := make([]T, s.NumCols)` from the cells of the row: panics when the row is longer
than `NumCols` (or `NumCols` is negative). Shared shape of Raw/Strings/Types/Formats. -/
def fillRow {α : Type} (numCols : Int) (dflt : α) (cells : List α) : GoRes (List α) :=
  if 0 ≤ numCols ∧ (cells.length : Int) ≤ numCols then
    .ok (cells ++ List.replicate (numCols.toNat - cells.length) dflt)
  else .panic

/-- `Raw`, `/repo/commonxl/sheet.go:120-126` (cloning is the identity on values). -/
def Sheet.raw (s : Sheet) : GoRes (List Cell) := do
  let r ← s.row
  fillRow s.numCols .empty r

/-- Rendering of one cell, `/repo/commonxl/sheet.go:132-145`. -/
def cellString (ext : Ext) (f : Formatter) (c : Cell) : GoRes Bytes :=
  match c.type with
  | .blank => .ok []
  | .static =>
    match c.value with
    | .str s => .ok s
    | _ => .panic
  | _ => do
    let (s, ok) ← f.apply ext c.formatNo c.value
    pure (if ok then s else sprint ext c.value)

/-- Evaluate a list of Go calls in order. -/
def seqRes {α : Type} : List (GoRes α) → GoRes (List α)
  | [] => .ok []
  | x :: xs => do
    let a ← x
    let as ← seqRes xs
    pure (a :: as)

/-- `Strings`, `/repo/commonxl/sheet.go:129-148`. -/
def Sheet.strings (ext : Ext) (s : Sheet) : GoRes (List Bytes) := do
  let r ← s.row
  let cells ← seqRes (r.map (cellString ext s.fmtr))
  fillRow s.numCols [] cells

/-- `Types`, `/repo/commonxl/sheet.go:153-159`. -/
def Sheet.types (s : Sheet) : GoRes (List Bytes) := do
  let r ← s.row
  fillRow s.numCols [] (r.map (fun c => c.type.name))

/-- `Formats`, `/repo/commonxl/sheet.go:162-172`. -/
def Sheet.formats (s : Sheet) : GoRes (List Bytes) := do
  let r ← s.row
  fillRow s.numCols [] (r.map (fun c =>
    match builtInFormats c.formatNo with
    | some t => t
    | none => decNat c.formatNo))

/-- A Scan destination of a sheet: supported pointer with its contents, a non-pointer of a supported
type, or anything else. -/
inductive SDest where
  | bool (v : Bool)
  | int64 (v : Int)
  | float (v : Float)
  | str (v : Bytes)
  | time (v : Time)
  | nonPointer
  | other

/-- One iteration of Scan, `/repo/commonxl/sheet.go:184-219`. -/
def scanCell (v : Val) : SDest → SDest × Option GoErr
  | .bool d => match v with
    | .bool x => (.bool x, none)
    | _ => (.bool d, some (.msg "scan destination expected another type, not *bool"))
  | .int64 d => match v with
    | .int x => (.int64 x, none)
    | _ => (.int64 d, some (.msg "scan destination expected another type, not *int64"))
  | .float d => match v with
    | .float x => (.float x, none)
    | _ => (.float d, some (.msg "scan destination expected another type, not *float64"))
  | .str d => match v with
    | .str x => (.str x, none)
    | _ => (.str d, some (.msg "scan destination expected another type, not *string"))
  | .time d => match v with
    | .time x => (.time x, none)
    | _ => (.time d, some (.msg "scan destination expected another type, not *time.Time"))
  | .nonPointer => (.nonPointer, some (.msg "scan destinations must be pointer"))
  | .other => (.other, some (.msg "scan destination is not supported"))

/-- The Scan loop, `/repo/commonxl/sheet.go:181-221`; `row[i]` panics when there are more
destinations than cells. -/
def scanRow : List Cell → List SDest → GoRes (List SDest × Option GoErr)
  | _, [] => .ok ([], none)
  | [], _ :: _ => .panic
  | c :: cs, d :: ds =>
    match scanCell c.value d with
    | (d', some e) => .ok (d' :: ds, some e)
    | (d', none) => do
      let r ← scanRow cs ds
      pure (d' :: r.1, r.2)

/-- `Scan`, `/repo/commonxl/sheet.go:178-222`. -/
def Sheet.scan (s : Sheet) (args : List SDest) : GoRes (List SDest × Option GoErr) := do
  let r ← s.row
  scanRow r args

/-- `IsEmpty`, `/repo/commonxl/sheet.go:225-227`. -/
def Sheet.isEmpty (s : Sheet) : Bool := s.numCols ≤ 1 && s.numRows ≤ 1

end Grate
