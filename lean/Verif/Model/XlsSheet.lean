import Verif.Model.Sheet
import Verif.Model.XlsStream
import Verif.Model.Hyperlinks

/-! # Model of `/repo/xls/sheets.go` and the compressed numbers of `/repo/xls/structs.go` -/

namespace Grate.Xls

/-! ### Compressed numbers -/

/-- `int32(r) >> 2`. -/
def rkVal (r : Nat) : Int := Cfb.toI32 r / 4

/-- `IsInteger`, `/repo/xls/structs.go:66-76`. -/
def rkIsInteger (r : Nat) : Bool := !r.testBit 0 && r.testBit 1

/-- `Int`, `/repo/xls/structs.go:78-87`. -/
def rkInt (r : Nat) : Int :=
  if !r.testBit 0 && r.testBit 1 then rkVal r
  else if r.testBit 0 && r.testBit 1 then (rkVal r).tdiv 100
  else 0

/-- `math.Float64frombits(uint64(val) << 34)`, `/repo/xls/structs.go:90-91`. -/
def rkBits (r : Nat) : Float :=
  Float.ofBits (UInt64.ofNat ((rkVal r % 2 ^ 64).toNat * 2 ^ 34 % 2 ^ 64))

/-- `Float64`, `/repo/xls/structs.go:89-100`. -/
def rkFloat (r : Nat) : Float :=
  if !r.testBit 0 && !r.testBit 1 then rkBits r
  else if r.testBit 0 && !r.testBit 1 then rkBits r / f64OfNat 100
  else f64OfNat 0

/-- The value put in the cell, `/repo/xls/sheets.go:168-173` and `202-207`. -/
def rkValue (r : Nat) : GoVal := if rkIsInteger r then .sint (rkInt r) else .f64 (rkFloat r)

/-- `berrLookup`, `/repo/xls/sheets.go:441-450`, with the text for unknown codes. -/
def berr (c : UInt8) : Bytes :=
  if c = 0x00 then lit "#NULL!"
  else if c = 0x07 then lit "#DIV/0!"
  else if c = 0x0F then lit "#VALUE!"
  else if c = 0x17 then lit "#REF!"
  else if c = 0x1D then lit "#NAME?"
  else if c = 0x24 then lit "#NUM!"
  else if c = 0x2A then lit "#N/A"
  else if c = 0x2B then lit "#GETTING_DATA"
  else lit "<unknown error>"

/-! ### The first pass -/

/-- Size and sheet after the first pass; `maxRow` is a `uint32`, `maxCol` a `uint16`. -/
structure Dims where
  maxRow : Nat
  maxCol : Nat
  sheet : Sheet

/-- A Dimensions record, `/repo/xls/sheets.go:80-98`. -/
def dimensions (data : Slice) (d : Dims) : GoRes Dims := do
  let _ ← (← data.sub 0 4).u32
  let maxRow ← (← data.sub 4 8).u32
  let _ ← (← data.sub 8 10).u16
  let maxCol ← (← data.sub 10 12).u16
  pure ⟨maxRow, maxCol, d.sheet.resize maxRow maxCol⟩

/-- The first pass, `/repo/xls/sheets.go:57-100`; `none` for a dialog. `first` holds for the record with index
0. -/
def pass1 : Bool → Nat → List Rec → Dims → GoRes (Option Dims)
  | _, _, [], d => .ok (some d)
  | first, nested, r :: rs, d =>
    if 0 < nested then pass1 false (if r.type = recEOF then nested - 1 else nested) rs d
    else if r.type = recBOF then pass1 false (if first then 0 else 1) rs d
    else if r.type = 129 then do
      let x ← r.data.idx 1
      if x &&& 0x10 ≠ 0 then .ok none else pass1 false 0 rs d
    else if r.type = 512 then do
      let d ← dimensions r.data d
      pass1 false 0 rs d
    else pass1 false 0 rs d

/-! ### The second pass -/

/-- The state of the second pass: `usCap` is the capacity of the string buffer. -/
structure CellSt where
  sheet : Sheet
  formulaRow : Nat
  formulaCol : Nat
  usCap : Nat

/-- The format of a style index, for example `/repo/xls/sheets.go:142-145`. -/
def Book.fmtOf (b : Book) (ixfe : Nat) : Nat := b.xfs.getD ixfe 0

/-- A BoolErr record, `/repo/xls/sheets.go:132-156`. -/
def boolErrRec (ext : Ext) (b : Book) (d : Slice) (s : Sheet) : GoRes Sheet := do
  let row ← (← d.sub 0 2).u16
  let col ← (← d.sub 2 4).u16
  let ixfe ← (← d.sub 4 6).u16
  let k ← d.idx 7
  let v ← d.idx 6
  if k = 0 then s.put ext row col (.bool (v = 1)) (b.fmtOf ixfe)
  else s.put ext row col (.str (berr v)) 0

/-- The loop over the values of a MulRk record, `/repo/xls/sheets.go:163-179`: `n` values from index `i` on. -/
def mulRkLoop (ext : Ext) (b : Book) (d : Slice) (row col : Nat) : Nat → Nat → Sheet → GoRes Sheet
  | 0, _, s => .ok s
  | n + 1, i, s => do
    let ixfe ← (← d.dropFrom (4 + i * 6)).u16
    let v ← (← d.dropFrom (4 + i * 6 + 2)).u32
    let s ← s.put ext row (col + i : Nat) (rkValue v) (b.fmtOf ixfe)
    mulRkLoop ext b d row col n (i + 1) s

/-- A MulRk record, `/repo/xls/sheets.go:158-179`; the count is computed with 16 bits. -/
def mulRkRec (ext : Ext) (b : Book) (size : Nat) (d : Slice) (s : Sheet) : GoRes Sheet := do
  let row ← (← d.sub 0 2).u16
  let col ← (← d.sub 2 4).u16
  mulRkLoop ext b d row col ((size + 65536 - 6) % 65536 / 6) 0 s

/-- A Number record, `/repo/xls/sheets.go:182-193`. -/
def numberRec (ext : Ext) (b : Book) (d : Slice) (s : Sheet) : GoRes Sheet := do
  let row ← (← d.sub 0 2).u16
  let col ← (← d.sub 2 4).u16
  let ixfe ← (← d.sub 4 6).u16
  let x ← (← d.dropFrom 6).u64
  s.put ext row col (.f64 (Float.ofBits (UInt64.ofNat x))) (b.fmtOf ixfe)

/-- An RK record, `/repo/xls/sheets.go:196-212`. -/
def rkRec (ext : Ext) (b : Book) (d : Slice) (s : Sheet) : GoRes Sheet := do
  let row ← (← d.sub 0 2).u16
  let col ← (← d.sub 2 4).u16
  let ixfe ← (← d.dropFrom 4).u16
  let v ← (← d.dropFrom 6).u32
  s.put ext row col (rkValue v) (b.fmtOf ixfe)

/-- The test for values that are not numbers, `/repo/xls/sheets.go:224`. -/
def formulaSpecial (fdata : Slice) : GoRes Bool := do
  let x6 ← fdata.idx 6
  if x6 = 0xFF then
    let x7 ← fdata.idx 7
    pure (x7 = 0xFF)
  else pure false

/-- The value of a Formula record, `/repo/xls/sheets.go:219-253`. -/
def formulaValue (ext : Ext) (row col fno : Nat) (fdata : Slice) (s : Sheet) : GoRes Sheet := do
  if ← formulaSpecial fdata then
    let x0 ← fdata.idx 0
    if x0 = 0 then s.put ext row col (.str []) fno
    else if x0 = 1 then
      let x2 ← fdata.idx 2
      s.put ext row col (.bool (x2 ≠ 0)) fno
    else if x0 = 2 then
      let x2 ← fdata.idx 2
      s.put ext row col (.str (berr x2)) 0
    else pure s
  else
    let x ← fdata.u64
    s.put ext row col (.f64 (Float.ofBits (UInt64.ofNat x))) fno

/-- A Formula record, `/repo/xls/sheets.go:215-253`. -/
def formulaRec (ext : Ext) (b : Book) (d : Slice) (st : CellSt) : GoRes CellSt := do
  let row ← (← d.sub 0 2).u16
  let col ← (← d.sub 2 4).u16
  let ixfe ← (← d.sub 4 6).u16
  let s ← formulaValue ext row col (b.fmtOf ixfe) (← d.dropFrom 6) st.sheet
  pure { st with sheet := s, formulaRow := row, formulaCol := col }

/-- The characters of a Continue record after a String record, `/repo/xls/sheets.go:289-300`. -/
def stringPart (usCap : Nat) (f : UInt8) (raw : Slice) : GoRes Bytes :=
  if f &&& 1 = 0 then .ok raw.val
  else if usCap < raw.len / 2 then .panic
  else do
    let (us, _) ← read16u (raw.len / 2) raw
    pure (u16str us)

/-- The Continue records after a String record, `/repo/xls/sheets.go:284-302`. -/
def stringCont (usCap : Nat) : List Rec → GoRes Bytes
  | [] => .ok []
  | r :: rs =>
    if r.type ≠ recContinue then .ok []
    else do
      let f ← r.data.idx 0
      let raw ← r.data.dropFrom 1
      let part ← stringPart usCap f raw
      let more ← stringCont usCap rs
      pure (part ++ more)

/-- The characters of the String record itself, `/repo/xls/sheets.go:266-279`. -/
def stringHead (charCount : Nat) (flags : UInt8) (raw : Slice) : GoRes Bytes :=
  if flags &&& 1 = 0 then .ok raw.val
  else do
    let (us, _) ← read16u charCount raw
    pure (u16str us)

/-- A String record, `/repo/xls/sheets.go:256-304`, with the records after it. -/
def stringRec (d : Slice) (later : List Rec) (st : CellSt) : GoRes CellSt := do
  let charCount ← (← d.sub 0 2).u16
  let flags ← d.idx 2
  let raw ← d.dropFrom 3
  let usCap := if flags &&& 1 = 0 then st.usCap else max st.usCap charCount
  let fstr ← stringHead charCount flags raw
  let more ← stringCont usCap later
  let s ← st.sheet.set st.formulaRow st.formulaCol (.str (fstr ++ more))
  pure { st with sheet := s, usCap := usCap }

/-- A LabelSst record, `/repo/xls/sheets.go:307-321`. -/
def labelRec (ext : Ext) (b : Book) (d : Slice) (s : Sheet) : GoRes Sheet := do
  let row ← (← d.sub 0 2).u16
  let col ← (← d.sub 2 4).u16
  let ixfe ← (← d.sub 4 6).u16
  let i ← (← d.dropFrom 6).u32
  if b.strings.length < i then .err (.msg "xls: invalid sst index")
  else
    match b.strings[i]? with
    | none => .panic
    | some t => if t = [] then pure s else s.put ext row col (.str t) (b.fmtOf ixfe)

/-- What is put in one cell of a merged region, `/repo/xls/sheets.go:355-370` and `403-417`; `top` is for the
top-left cell. -/
def regionVal (top : Option Bytes) (r0 r1 c0 c1 rn cn : Nat) : Option Bytes :=
  if rn = r0 ∧ cn = c0 then top
  else if cn = c0 then (if rn = r1 then some endRow else some contRow)
  else if cn = c1 then some endCol
  else some contCol

/-- One cell of a region. -/
def putRegionCell (ext : Ext) (top : Option Bytes) (r0 r1 c0 c1 rn cn : Nat) (s : Sheet) : GoRes Sheet :=
  match regionVal top r0 r1 c0 c1 rn cn with
  | none => .ok s
  | some v => s.put ext rn cn (.str v) 0

/-- The inner loop: `n` columns from `cn` on. -/
def putRegionRow (ext : Ext) (top : Option Bytes) (r0 r1 c0 c1 rn : Nat) : Nat → Nat → Sheet → GoRes Sheet
  | 0, _, s => .ok s
  | n + 1, cn, s => do
    let s ← putRegionCell ext top r0 r1 c0 c1 rn cn s
    putRegionRow ext top r0 r1 c0 c1 rn n (cn + 1) s

/-- The outer loop: `n` rows from `rn` on. -/
def putRegionRows (ext : Ext) (top : Option Bytes) (r0 r1 c0 c1 : Nat) : Nat → Nat → Sheet → GoRes Sheet
  | 0, _, s => .ok s
  | n + 1, rn, s => do
    let s ← putRegionRow ext top r0 r1 c0 c1 rn (c1 + 1 - c0) c0 s
    putRegionRows ext top r0 r1 c0 c1 n (rn + 1) s

/-- The loops over a region, `/repo/xls/sheets.go:353-372` and `401-419`. -/
def putRegion (ext : Ext) (top : Option Bytes) (r0 r1 c0 c1 : Nat) (s : Sheet) : GoRes Sheet :=
  putRegionRows ext top r0 r1 c0 c1 (r1 + 1 - r0) r0 s

/-- The placeholder of the last row, `/repo/xls/sheets.go:337-339` and `395-397`. -/
def lastRowOf (maxRow r : Nat) : Nat := if r = 0xFFFF then (maxRow + 65535) % 65536 else r

/-- The placeholder of the last column, `/repo/xls/sheets.go:340-342` and `398-400`. -/
def lastColOf (maxCol c : Nat) : Nat := if c = 0xFF then (maxCol + 65535) % 65536 else c

/-- An HLink record, `/repo/xls/sheets.go:324-372`. -/
def hlinkRec (ext : Ext) (maxRow maxCol : Nat) (d : Slice) (s : Sheet) : GoRes Sheet := do
  let r0 ← (← d.sub 0 2).u16
  let r1 ← (← d.sub 2 4).u16
  let c0 ← (← d.sub 4 6).u16
  let c1 ← (← d.dropFrom 6).u16
  if maxCol < c0 then pure s
  else if maxRow < r0 then pure s
  else
    match decodeHyperlinks (← d.dropFrom 8) with
    | .panic => .panic
    | .err _ => .ok s
    | .ok (display, link) =>
      putRegion ext (some (display ++ lit " <" ++ link ++ lit ">")) r0 (lastRowOf maxRow r1) c0 (lastColOf maxCol c1) s

/-- The regions of a MergeCells record, `/repo/xls/sheets.go:388-420`. -/
def mergeLoop (ext : Ext) (maxRow maxCol : Nat) : Nat → Slice → Sheet → GoRes Sheet
  | 0, _, s => .ok s
  | n + 1, raw, s => do
    let r0 ← (← raw.sub 0 2).u16
    let r1 ← (← raw.sub 2 4).u16
    let c0 ← (← raw.sub 4 6).u16
    let c1 ← (← raw.dropFrom 6).u16
    let raw ← raw.dropFrom 8
    let s ← putRegion ext none r0 (lastRowOf maxRow r1) c0 (lastColOf maxCol c1) s
    mergeLoop ext maxRow maxCol n raw s

/-- A MergeCells record, `/repo/xls/sheets.go:374-420`. -/
def mergeRec (ext : Ext) (maxRow maxCol : Nat) (d : Slice) (s : Sheet) : GoRes Sheet := do
  let n ← (← d.sub 0 2).u16
  mergeLoop ext maxRow maxCol n (← d.dropFrom 2) s

/-- Replace the sheet of the state. -/
def CellSt.with (st : CellSt) (x : GoRes Sheet) : GoRes CellSt := do
  let s ← x
  pure { st with sheet := s }

/-- One record of the second pass, `/repo/xls/sheets.go:125-436`. -/
def cellRec (ext : Ext) (b : Book) (maxRow maxCol : Nat) (r : Rec) (later : List Rec) (st : CellSt) : GoRes CellSt :=
  if r.type = 517 then st.with (boolErrRec ext b r.data st.sheet)
  else if r.type = 189 then st.with (mulRkRec ext b r.size r.data st.sheet)
  else if r.type = 515 then st.with (numberRec ext b r.data st.sheet)
  else if r.type = 638 then st.with (rkRec ext b r.data st.sheet)
  else if r.type = 6 then formulaRec ext b r.data st
  else if r.type = 519 then stringRec r.data later st
  else if r.type = 253 then st.with (labelRec ext b r.data st.sheet)
  else if r.type = 440 then st.with (hlinkRec ext maxRow maxCol r.data st.sheet)
  else if r.type = 229 then st.with (mergeRec ext maxRow maxCol r.data st.sheet)
  else .ok st

/-- The second pass, `/repo/xls/sheets.go:101-437`. -/
def pass2 (ext : Ext) (b : Book) (maxRow maxCol : Nat) : Bool → Nat → List Rec → CellSt → GoRes CellSt
  | _, _, [], st => .ok st
  | first, nested, r :: rs, st =>
    if 0 < nested then pass2 ext b maxRow maxCol false (if r.type = recEOF then nested - 1 else nested) rs st
    else if r.type = recBOF then pass2 ext b maxRow maxCol false (if first then 0 else 1) rs st
    else do
      let st ← cellRec ext b maxRow maxCol r rs st
      pass2 ext b maxRow maxCol false 0 rs st

/-- `parseSheet`, `/repo/xls/sheets.go:47-439`; `none` for a dialog (a nil sheet without an error). -/
def parseSheet (ext : Ext) (b : Book) (ss : Nat) : GoRes (Option Sheet) :=
  match b.subs[ss]? with
  | none => .panic
  | some recs => do
    match ← pass1 true 0 recs ⟨0, 0, Sheet.new b.nfmt⟩ with
    | none => pure none
    | some d =>
      let st ← pass2 ext b d.maxRow d.maxCol true 0 recs ⟨d.sheet, 0, 0, 8224⟩
      pure (some st.sheet)

/-- `Get`, `/repo/xls/sheets.go:37-45`. -/
def Book.get (ext : Ext) (b : Book) (name : Bytes) : GoRes (Option Sheet) :=
  match b.sheets.find? (fun s => s.name = name) with
  | some s => parseSheet ext b (b.subIndex s.position)
  | none => .err (.msg "xls: sheet not found")

end Grate.Xls
