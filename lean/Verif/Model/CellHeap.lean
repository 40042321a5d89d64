import Verif.Model.Sheet

/-! # Model of the memory of cells: `/repo/commonxl/cell.go` and `/repo/commonxl/sheet.go` with slices

`Cell` is a slice of `interface{}`, so cells that share an array share their contents. `Model/Cell` and `Model/Sheet` take cells
for values. Here a cell is a reference to an array on a heap, and the functions read and write the arrays; that the two models agree
is proved in `Props/CellHeap`. Rows (`[][]Cell`) are values here as well: the slices of a row are only held by the sheet, and `Raw`
makes a new one. -/

namespace Grate.CellHeap

/-- An element of a cell: the value, the type, the number of the format, or a link. -/
inductive Word where
  | val (v : Val)
  | ty (t : CellType)
  | num (n : Nat)
  | link (b : Bytes)

/-- The arrays that were allocated so far, by address; the length of an array is its capacity. -/
abbrev Heap := List (List Word)

/-- A slice that starts at the start of its array. Slices of length 0 are nil or were made with capacity 0. -/
structure Ref where
  addr : Nat
  len : Nat

/-- The nil slice. -/
def Ref.nil : Ref := ⟨0, 0⟩

/-- The elements of a slice. -/
def read (h : Heap) (r : Ref) : List Word := (h.getD r.addr []).take r.len

/-- `cap`. -/
def cap (h : Heap) (r : Ref) : Nat := if r.len = 0 then 0 else (h.getD r.addr []).length

/-- A new array. -/
def alloc (h : Heap) (ws : List Word) : Heap × Ref := (h ++ [ws], ⟨h.length, ws.length⟩)

/-- `c[i] = w`. -/
def write (h : Heap) (r : Ref) (i : Nat) (w : Word) : GoRes Heap :=
  if i < r.len then .ok (h.modify r.addr (fun a => a.set i w)) else .panic

/-- `append(c, ws...)`: in place while the capacity suffices, else in a new array (`g` is the capacity the Go runtime gives it). -/
def append (g : Nat → Nat) (h : Heap) (r : Ref) (ws : List Word) : Heap × Ref :=
  if r.len + ws.length ≤ cap h r then
    (h.modify r.addr (fun a => a.take r.len ++ ws ++ a.drop (r.len + ws.length)), ⟨r.addr, r.len + ws.length⟩)
  else
    (h ++ [read h r ++ ws ++ List.replicate (g (r.len + ws.length) - (r.len + ws.length)) (.val .nil)],
      ⟨h.length, r.len + ws.length⟩)

/-- `NewCell`, `/repo/commonxl/cell.go:199-303`: an array of two elements. -/
def newCell (h : Heap) (value : GoVal) : GoRes (Heap × Ref) := do
  match ← Grate.newCell value with
  | .empty => .panic
  | .full v t _ _ => pure (alloc h [.val v, .ty t])

/-- `NewCellWithType`, `/repo/commonxl/cell.go:119-196`: the conversions overwrite the elements of the new cell. -/
def newCellWithType (ext : Ext) (m1904 : Bool) (h : Heap) (value : GoVal) (t : CellType) : GoRes (Heap × Ref) := do
  match ← Grate.newCell value with
  | .empty => .panic
  | .full v ty _ _ =>
    let (h, r) := alloc h [.val v, .ty ty]
    if ty = t then pure (h, r)
    else
      let p := coerce ext m1904 t v ty
      let h ← write h r 0 (.val p.1)
      let h ← write h r 1 (.ty p.2)
      pure (h, r)

/-- `SetFormatNumber`, `/repo/commonxl/cell.go:306-317`. -/
def setFormatNumber (g : Nat → Nat) (h : Heap) (r : Ref) (f : Nat) : GoRes (Heap × Ref) :=
  if f = 0 then if 2 ≤ cap h r then .ok (h, ⟨r.addr, 2⟩) else .panic
  else if r.len = 2 then .ok (append g h r [.num f])
  else do
    let h ← write h r 2 (.num f)
    pure (h, r)

/-- `SetURL`, `/repo/commonxl/cell.go:66-73`. -/
def setURL (g : Nat → Nat) (h : Heap) (r : Ref) (l : Bytes) : GoRes (Heap × Ref) := do
  let h ← write h r 1 (.ty .hyperlink)
  if r.len = 2 then pure (append g h r [.num 0, .link l]) else pure (append g h r [.link l])

/-- `Clone`, `/repo/commonxl/cell.go:101-107`. -/
def clone (h : Heap) (r : Ref) : Heap × Ref := alloc h (read h r)

/-- `Sheet`, `/repo/commonxl/sheet.go:12-19`. -/
structure HSheet where
  fmtr : Formatter
  numRows : Int
  numCols : Int
  rows : List (List Ref)
  curRow : Int

/-- Extend one row with nil cells, `/repo/commonxl/sheet.go:28-32`. -/
def extendRow (cols : Int) (row : List Ref) : List Ref :=
  let n := cols - row.length
  if n ≤ 0 then row else row ++ List.replicate n.toNat .nil

/-- The loop at `/repo/commonxl/sheet.go:24-33` from index `i`. -/
def extendRows (rows cols : Int) : Nat → List (List Ref) → List (List Ref)
  | _, [] => []
  | i, r :: rs =>
    if (i : Int) > rows then r :: rs
    else extendRow cols r :: extendRows rows cols (i + 1) rs

/-- `Resize`, `/repo/commonxl/sheet.go:23-48`. -/
def HSheet.resize (s : HSheet) (rows cols : Int) : HSheet :=
  let rs := extendRows rows cols 0 s.rows
  let rows := if rows ≤ 0 then 1 else rows
  let cols := if cols ≤ 0 then 1 else cols
  let rs := rs ++ List.replicate (rows + 1 - rs.length).toNat (List.replicate cols.toNat .nil)
  { s with curRow := 0, numRows := rows, numCols := cols, rows := rs }

/-- `s.Rows[row][col]`. -/
def HSheet.cell? (s : HSheet) (row col : Int) : Option Ref :=
  if 0 ≤ row ∧ 0 ≤ col then (s.rows[row.toNat]?).bind (fun r => r[col.toNat]?) else none

/-- `s.Rows[row][col] = c`. -/
def HSheet.store (s : HSheet) (row col : Int) (c : Ref) : HSheet :=
  { s with rows := s.rows.modify row.toNat (fun r => r.set col.toNat c) }

/-- In-place growth when a cell is outside the declared size, `/repo/commonxl/sheet.go:53-68`. -/
def HSheet.grow (s : HSheet) (row col : Int) : HSheet :=
  if row ≥ s.numRows ∨ col ≥ s.numCols then
    let nr := if row ≥ s.numRows then row + 1 else s.numRows
    let nc := if col ≥ s.numCols then col + 1 else s.numCols
    s.resize nr nc
  else s

/-- The cell for a value that is not a marker, `/repo/commonxl/sheet.go:78-83`. -/
def typedCell (ext : Ext) (f : Formatter) (h : Heap) (value : GoVal) (fmtNum : Nat) : GoRes (Heap × Ref) :=
  match f.getCellType fmtNum with
  | none => newCell h value
  | some ct => if fmtNum = 0 then newCell h value else newCellWithType ext f.mode1904 h value ct

/-- The cell `Put` makes, `/repo/commonxl/sheet.go:70-84`. -/
def putCell (ext : Ext) (g : Nat → Nat) (f : Formatter) (h : Heap) (value : GoVal) (fmtNum : Nat) : GoRes (Heap × Ref) :=
  bif value.marker then do
    let (h, r) ← newCell h value
    let h ← write h r 1 (.ty .static)
    pure (h, r)
  else do
    let (h, r) ← typedCell ext f h value fmtNum
    setFormatNumber g h r fmtNum

/-- `Put`, `/repo/commonxl/sheet.go:51-85`. -/
def HSheet.put (ext : Ext) (g : Nat → Nat) (h : Heap) (s : HSheet) (row col : Int) (value : GoVal) (fmtNum : Nat) :
    GoRes (Heap × HSheet) := do
  let s := s.grow row col
  let (h, r) ← putCell ext g s.fmtr h value fmtNum
  match s.cell? row col with
  | none => .panic
  | some _ => pure (h, s.store row col r)

/-- `Set`, `/repo/commonxl/sheet.go:89-97`: two elements of the cell are overwritten. -/
def HSheet.set (h : Heap) (s : HSheet) (row col : Int) (v : Val) : GoRes (Heap × HSheet) :=
  if row > s.numRows ∨ col > s.numCols then .ok (h, s)
  else
    match s.cell? row col with
    | none => .panic
    | some r => do
      let h ← write h r 0 (.val v)
      let h ← write h r 1 (.ty .string)
      pure (h, s)

/-- `SetURL`, `/repo/commonxl/sheet.go:100-107`: the cell may move to another array. -/
def HSheet.setURL (g : Nat → Nat) (h : Heap) (s : HSheet) (row col : Int) (l : Bytes) : GoRes (Heap × HSheet) :=
  if row > s.numRows ∨ col > s.numCols then .ok (h, s)
  else
    match s.cell? row col with
    | none => .panic
    | some r => do
      let (h, r) ← CellHeap.setURL g h r l
      pure (h, s.store row col r)

/-- `Next`, `/repo/commonxl/sheet.go:111-117`. -/
def HSheet.next (s : HSheet) : HSheet :=
  if s.curRow + 1 > s.rows.length then s else { s with curRow := s.curRow + 1 }

/-- The loop of `Raw`, `/repo/commonxl/sheet.go:122-124`. -/
def cloneRow (h : Heap) : List Ref → Heap × List Ref
  | [] => (h, [])
  | r :: rs =>
    let (h, r') := clone h r
    let (h, rs') := cloneRow h rs
    (h, r' :: rs')

/-- `s.Rows[s.CurRow-1]`. -/
def HSheet.row (s : HSheet) : GoRes (List Ref) :=
  if 1 ≤ s.curRow then
    match s.rows[(s.curRow - 1).toNat]? with
    | some r => .ok r
    | none => .panic
  else .panic

/-- `Raw`, `/repo/commonxl/sheet.go:120-126`. -/
def HSheet.raw (h : Heap) (s : HSheet) : GoRes (Heap × List Ref) := do
  let r ← s.row
  let (h, rs) := cloneRow h r
  let rs ← fillRow s.numCols .nil rs
  pure (h, rs)

/-! ### A program that uses a sheet -/

/-- What a program does: calls on the sheet, and changes to the cells it got from `Raw` (the one with number `i` of the row it got
with call number `k`). -/
inductive Op where
  | put (row col : Int) (value : GoVal) (fmtNum : Nat)
  | set (row col : Int) (v : Val)
  | setURL (row col : Int) (l : Bytes)
  | resize (rows cols : Int)
  | next
  | raw
  | outURL (k i : Nat) (l : Bytes)
  | outFormat (k i : Nat) (f : Nat)
  | outValue (k i : Nat) (v : Val)

/-- The memory, the sheet, and the rows the program got. -/
structure Sys where
  heap : Heap
  sheet : HSheet
  out : List (List Ref)

/-- One step. -/
def Sys.step (ext : Ext) (g : Nat → Nat) (s : Sys) : Op → GoRes Sys
  | .put row col v f => do
    let (h, t) ← s.sheet.put ext g s.heap row col v f
    pure { s with heap := h, sheet := t }
  | .set row col v => do
    let (h, t) ← s.sheet.set s.heap row col v
    pure { s with heap := h, sheet := t }
  | .setURL row col l => do
    let (h, t) ← s.sheet.setURL g s.heap row col l
    pure { s with heap := h, sheet := t }
  | .resize rows cols => pure { s with sheet := s.sheet.resize rows cols }
  | .next => pure { s with sheet := s.sheet.next }
  | .raw => do
    let (h, rs) ← s.sheet.raw s.heap
    pure { s with heap := h, out := s.out ++ [rs] }
  | .outURL k i l =>
    match (s.out[k]?).bind (fun r => r[i]?) with
    | none => .panic
    | some r => do
      let (h, r) ← CellHeap.setURL g s.heap r l
      pure { s with heap := h, out := s.out.modify k (fun row => row.set i r) }
  | .outFormat k i f =>
    match (s.out[k]?).bind (fun r => r[i]?) with
    | none => .panic
    | some r => do
      let (h, r) ← setFormatNumber g s.heap r f
      pure { s with heap := h, out := s.out.modify k (fun row => row.set i r) }
  | .outValue k i v =>
    match (s.out[k]?).bind (fun r => r[i]?) with
    | none => .panic
    | some r => do
      let h ← write s.heap r 0 (.val v)
      pure { s with heap := h }

/-- Several steps. -/
def Sys.run (ext : Ext) (g : Nat → Nat) (s : Sys) : List Op → GoRes Sys
  | [] => .ok s
  | o :: os => do
    let s ← s.step ext g o
    s.run ext g os

/-- A new sheet, nothing handed out. -/
def Sys.new (f : Formatter) : Sys := ⟨[], ⟨f, 0, 0, [], 0⟩, []⟩

end Grate.CellHeap
