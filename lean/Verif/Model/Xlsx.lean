import Verif.Model.Sheet
import Verif.Model.XlsxRefs

/-! # Model of `/repo/xlsx/xlsx.go`, `/repo/xlsx/workbook.go` and `/repo/xlsx/sheets.go` -/

namespace Grate.Xlsx

open Grate

/-- `zip.Reader.File` (`archive/zip` is not modelled): the entries in order; opening one can fail. -/
abbrev Archive := List (Bytes × Except GoErr Part)

/-- `openXML`, `/repo/xlsx/xlsx.go:135-150`. -/
def openXML : Archive → Bytes → Except GoErr Part
  | [], _ => .error .eof
  | (n, p) :: rest, name => if n = name then p else openXML rest name

/-- The error a loop over the tokens of a part ends with, e.g. `/repo/xlsx/workbook.go:53-56`. -/
def finErr (e : GoErr) : Option GoErr :=
  match e with
  | .eof => none
  | e => some e

/-- The end of a function that reads all tokens of a part. -/
def finish {α : Type} (a : α) (e : GoErr) : GoRes α :=
  match finErr e with
  | none => .ok a
  | some e => .err e

/-! ### Relationships -/

/-- `d.rels`, `/repo/xlsx/xlsx.go:27`: type, id and part name; each pair of type and id occurs once. (A type without
ids is not in the map.) -/
abbrev Rels := List (Bytes × Bytes × Bytes)

/-- `d.rels[typ][id] = name` -/
def Rels.set (typ id name : Bytes) : Rels → Rels
  | [] => [(typ, id, name)]
  | (t, i, n) :: rest => if t = typ ∧ i = id then (t, i, name) :: rest else (t, i, n) :: Rels.set typ id name rest

/-- `d.rels[typ][id]` -/
def Rels.get (typ id : Bytes) : Rels → Bytes
  | [] => []
  | (t, i, n) :: rest => if t = typ ∧ i = id then n else Rels.get typ id rest

/-- The values of `d.rels[typ]`. -/
def Rels.values (typ : Bytes) (rels : Rels) : List Bytes := (rels.filter (fun r => r.1 = typ)).map (fun r => r.2.2)

/-- The relationship types. -/
def tOfficeDocument : Bytes := lit "http://schemas.openxmlformats.org/officeDocument/2006/relationships/officeDocument"
/-- `/repo/xlsx/workbook.go:79` -/
def tWorksheet : Bytes := lit "http://schemas.openxmlformats.org/officeDocument/2006/relationships/worksheet"
/-- `/repo/xlsx/xlsx.go:104` -/
def tStyles : Bytes := lit "http://schemas.openxmlformats.org/officeDocument/2006/relationships/styles"
/-- `/repo/xlsx/xlsx.go:118` -/
def tSharedStrings : Bytes := lit "http://schemas.openxmlformats.org/officeDocument/2006/relationships/sharedStrings"
/-- `/repo/xlsx/sheets.go:44` -/
def tHyperlink : Bytes := lit "http://schemas.openxmlformats.org/officeDocument/2006/relationships/hyperlink"

/-- The part name of a relationship, `/repo/xlsx/workbook.go:31-36`. -/
def relTarget (basedir target : Bytes) : Bytes :=
  match target with
  | 47 :: rest => rest
  | _ => joinPath [basedir, target]

/-- What `parseRels` changes: `d.rels` and `d.primaryDoc`. -/
structure RelSt where
  rels : Rels
  primaryDoc : Bytes

/-- A Relationship element, `/repo/xlsx/workbook.go:24-39`. -/
def relElem (basedir : Bytes) (attrs : List (Bytes × Bytes)) (st : RelSt) : RelSt :=
  let typ := attr attrs (lit "Type")
  let target := attr attrs (lit "Target")
  { rels := st.rels.set typ (attr attrs (lit "Id")) (relTarget basedir target),
    primaryDoc := if typ = tOfficeDocument then target else st.primaryDoc }

/-- The loop of `parseRels`, `/repo/xlsx/workbook.go:16-52`. -/
def relsLoop (basedir : Bytes) : List Tok → RelSt → RelSt
  | [], st => st
  | .start name attrs :: ts, st =>
    relsLoop basedir ts (if name = lit "Relationship" then relElem basedir attrs st else st)
  | _ :: ts, st => relsLoop basedir ts st

/-- `parseRels`, `/repo/xlsx/workbook.go:15-57`. -/
def parseRels (basedir : Bytes) (p : Part) (st : RelSt) : GoRes RelSt := finish (relsLoop basedir p.toks st) p.fin

/-! ### The workbook part -/

/-- `Sheet`, `/repo/xlsx/sheets.go:16-25`: `state = none` is `err = errNotLoaded`, otherwise `wrapped` and `err`.
(`relID` is not used.) -/
structure XSheet where
  name : Bytes
  docname : Bytes
  state : Option (Sheet × Option GoErr)

/-- The loop of `parseWorkbook`, `/repo/xlsx/workbook.go:60-97`; the sheets that are added. -/
def workbookLoop (rels : Rels) : List Tok → GoRes (List XSheet)
  | [] => .ok []
  | .start name attrs :: ts =>
    if name = lit "sheet" then
      match attr? attrs (lit "id"), attr? attrs (lit "name") with
      | some id, some nm => do
        let ss ← workbookLoop rels ts
        pure (⟨nm, rels.get tWorksheet id, none⟩ :: ss)
      | _, _ => .err (.msg "xlsx: invalid sheet definition")
    else workbookLoop rels ts
  | _ :: ts => workbookLoop rels ts

/-- `parseWorkbook`, `/repo/xlsx/workbook.go:59-102`. -/
def parseWorkbook (rels : Rels) (p : Part) : GoRes (List XSheet) := do
  let ss ← workbookLoop rels p.toks
  finish ss p.fin

/-! ### Styles -/

/-- The variables of `parseStyles`: `d.fmt`, `d.xfs`, `baseNumFormats` and `section`. -/
structure StyleSt where
  fmt : Formatter
  xfs : List Nat
  base : List Bytes
  sec : Nat

/-- Go conversion `uint16(n)`. -/
def toU16 (n : Int) : Nat := (n % 65536).toNat

/-- `make([]uint16, 0, n)`: panics unless the size is in range (memory may also run out, which is not modelled). -/
def makeCap (n : Int) : GoRes (List Nat) := if 0 ≤ n ∧ n ≤ 2 ^ 47 then .ok [] else .panic

/-- `s[i]` of a list. -/
def index {α : Type} (s : List α) (i : Int) : GoRes α :=
  if 0 ≤ i then
    match s[i.toNat]? with
    | some a => .ok a
    | none => .panic
  else .panic

/-- An xf element, `/repo/xlsx/workbook.go:130-159`. -/
def xfElem (attrs : List (Bytes × Bytes)) (st : StyleSt) : GoRes StyleSt :=
  let ax0 := attr attrs (lit "numFmtId")
  let ax1 := attr attrs (lit "applyNumberFormat")
  if st.sec = 1 then
    .ok { st with base := st.base ++ [if ax1 = lit "0" then lit "0" else ax0] }
  else if st.sec = 2 then do
    let baseID := (parseInt 64 (attr attrs (lit "xfId"))).1
    let _ ← (if (st.base.length : Int) > baseID then index st.base baseID else .ok (lit "0"))
    let numFmtID := if ax1 = lit "0" then lit "0" else ax0
    pure { st with xfs := st.xfs ++ [toU16 (parseInt 16 numFmtID).1] }
  else .panic

/-- A start element, `/repo/xlsx/workbook.go:113-164`. -/
def styleElem (mk : Bytes → Fmt × CellType) (name : Bytes) (attrs : List (Bytes × Bytes)) (st : StyleSt) :
    GoRes StyleSt :=
  if name = lit "numFmt" then
    .ok { st with
      fmt := (st.fmt.add mk (toU16 (parseInt 16 (attr attrs (lit "numFmtId"))).1) (attr attrs (lit "formatCode"))).1 }
  else if name = lit "cellStyleXfs" then .ok { st with sec := 1 }
  else if name = lit "cellXfs" then do
    let xfs ← makeCap (parseInt 64 (attr attrs (lit "count"))).1
    pure { st with sec := 2, xfs := xfs }
  else if name = lit "xf" then xfElem attrs st
  else .ok st

/-- The loop of `parseStyles`, `/repo/xlsx/workbook.go:109-177`. -/
def stylesLoop (mk : Bytes → Fmt × CellType) : List Tok → StyleSt → GoRes StyleSt
  | [], st => .ok st
  | .start name attrs :: ts, st => do stylesLoop mk ts (← styleElem mk name attrs st)
  | .stop name :: ts, st =>
    stylesLoop mk ts (if name = lit "cellStyleXfs" ∨ name = lit "cellXfs" then { st with sec := 0 } else st)
  | _ :: ts, st => stylesLoop mk ts st

/-- `parseStyles`, `/repo/xlsx/workbook.go:104-182`: `d.fmt` and `d.xfs`. -/
def parseStyles (mk : Bytes → Fmt × CellType) (p : Part) (fmt : Formatter) : GoRes (Formatter × List Nat) := do
  let st ← stylesLoop mk p.toks ⟨fmt, [], [], 0⟩
  finish (st.fmt, st.xfs) p.fin

/-! ### Shared strings -/

/-- The loop of `parseSharedStrings`, `/repo/xlsx/workbook.go:186-214`, with `val` and `d.strings`. -/
def stringsLoop : List Tok → Bytes → List Bytes → List Bytes
  | [], _, out => out
  | .chars v :: ts, val, out => stringsLoop ts (val ++ v) out
  | .start name _ :: ts, val, out => stringsLoop ts (if name = lit "si" then [] else val) out
  | .stop name :: ts, val, out => stringsLoop ts val (if name = lit "si" then out ++ [val] else out)
  | .other :: ts, val, out => stringsLoop ts val out

/-- `parseSharedStrings`, `/repo/xlsx/workbook.go:184-219`. -/
def parseSharedStrings (p : Part) (strings : List Bytes) : GoRes (List Bytes) :=
  finish (stringsLoop p.toks [] strings) p.fin

/-! ### Worksheets -/

/-- `Document`, `/repo/xlsx/xlsx.go:20-32`; the archive is passed separately. -/
structure Doc where
  rels : Rels
  primaryDoc : Bytes
  sheets : List XSheet
  strings : List Bytes
  xfs : List Nat
  fmt : Formatter

/-- `linkmap`, `/repo/xlsx/sheets.go:33-50`. -/
def linkLoop : List Tok → (Bytes → Bytes) → Bytes → Bytes
  | [], m => m
  | .start name attrs :: ts, m =>
    linkLoop ts
      (if name = lit "Relationship" ∧ attr attrs (lit "TargetMode") = lit "External" ∧
          attr attrs (lit "Type") = tHyperlink then
        fun k => if k = attr attrs (lit "Id") then attr attrs (lit "Target") else m k
      else m)
  | _ :: ts, m => linkLoop ts m

/-- The links of a worksheet; errors are ignored. -/
def linkMap (a : Archive) (docname : Bytes) : Bytes → Bytes :=
  match openXML a (relsOf docname) with
  | .ok p => linkLoop p.toks (fun _ => [])
  | .error _ => fun _ => []

/-- The variables of `parseSheet`, `/repo/xlsx/sheets.go:58-61`, and `s.wrapped`. -/
structure WsSt where
  typ : Bytes
  cell : Bytes
  fno : Nat
  maxCol : Int
  maxRow : Int
  sheet : Sheet

/-- The value of a text in a cell, `/repo/xlsx/sheets.go:72-101`; `none` for `BlankCellType`. -/
def cellValue (ext : Ext) (strings : List Bytes) (typ v : Bytes) : GoRes (Option GoVal) :=
  if typ = lit "b" then
    match v with
    | [] => .panic
    | c :: _ => .ok (some (.bool (c = 49)))
  else if typ = lit "n" then
    match ext.parseFloat v with
    | (x, none) => .ok (some (.f64 x))
    | _ => .ok (some (.str v))
  else if typ = lit "s" then do
    let s ← index strings (parseInt 64 v).1
    pure (some (.str s))
  else if typ = [] then .ok none
  else .ok (some (.str v))

/-- Character data, `/repo/xlsx/sheets.go:66-105`. -/
def charsTok (ext : Ext) (d : Doc) (v : Bytes) (st : WsSt) : GoRes WsSt :=
  if st.cell = [] then .ok st
  else do
    let (c, r) ← refToIndexes st.cell
    if 0 ≤ c ∧ 0 ≤ r then
      match ← cellValue ext d.strings st.typ v with
      | none => pure st
      | some val => do
        let s ← st.sheet.put ext r c val st.fno
        pure { st with sheet := s }
    else pure st

/-- A dimension element, `/repo/xlsx/sheets.go:109-123`. (`strings.Split` gives at least one string.) -/
def dimElem (attrs : List (Bytes × Bytes)) (st : WsSt) : GoRes WsSt :=
  let ref := attr attrs (lit "ref")
  if ref = lit "A1" then .ok { st with maxCol := 1, maxRow := 1, sheet := st.sheet.resize 1 1 }
  else do
    let (c, r) ← (match splitByte 58 ref with
      | _ :: b :: _ => refToIndexes b
      | [a] => refToIndexes a
      | [] => .panic)
    pure { st with maxCol := c, maxRow := r, sheet := st.sheet.resize r c }

/-- A c element, `/repo/xlsx/sheets.go:129-142`. -/
def cElem (d : Doc) (attrs : List (Bytes × Bytes)) (st : WsSt) : GoRes WsSt := do
  let t := attr attrs (lit "t")
  let sid := (parseInt 64 (attr attrs (lit "s"))).1
  let fno ← (if (d.xfs.length : Int) > sid then index d.xfs sid else .ok 0)
  pure { st with typ := if t = [] then lit "n" else t, cell := attr attrs (lit "r"), fno := fno }

/-- What is put in a cell of a merged region, `/repo/xlsx/sheets.go:162-176`. -/
def mergeVal (r0 r1 c0 c1 r c : Int) : Option Bytes :=
  if r = r0 ∧ c = c0 then none
  else if c = c0 then (if r = r1 then some endRow else some contRow)
  else if c = c1 then some endCol
  else some contCol

/-- One cell of a region. -/
def mergeCell (ext : Ext) (r0 r1 c0 c1 r c : Int) (s : Sheet) : GoRes Sheet :=
  match mergeVal r0 r1 c0 c1 r c with
  | none => .ok s
  | some v => s.put ext r c (.str v) 0

/-- The loop over `n` columns from `c` on, `/repo/xlsx/sheets.go:161-177`. -/
def mergeRow (ext : Ext) (r0 r1 c0 c1 r : Int) : Nat → Int → Sheet → GoRes Sheet
  | 0, _, s => .ok s
  | n + 1, c, s => do mergeRow ext r0 r1 c0 c1 r n (c + 1) (← mergeCell ext r0 r1 c0 c1 r c s)

/-- The loop over `n` rows from `r` on, `/repo/xlsx/sheets.go:160-178`. -/
def mergeRows (ext : Ext) (r0 r1 c0 c1 : Int) : Nat → Int → Sheet → GoRes Sheet
  | 0, _, s => .ok s
  | n + 1, r, s => do
    let s ← mergeRow ext r0 r1 c0 c1 r (c1 + 1 - c0).toNat c0 s
    mergeRows ext r0 r1 c0 c1 n (r + 1) s

/-- A mergeCell element, `/repo/xlsx/sheets.go:146-178`. (The counters do not overflow: a column or row number is less
than 2^63-1 unless the sheet is too large for memory.) -/
def mergeElem (ext : Ext) (attrs : List (Bytes × Bytes)) (st : WsSt) : GoRes WsSt := do
  let (a, b) := (match splitByte 58 (attr attrs (lit "ref")) with
    | a :: b :: _ => (a, some b)
    | [a] => (a, none)
    | [] => ([], none))
  let (c0, r0) ← refToIndexes a
  let (c1, r1) ← (match b with
    | none => .ok (c0, r0)
    | some b => refToIndexes b)
  let r1 := if r1 > st.maxRow then st.maxRow else r1
  let c1 := if c1 > st.maxCol then st.maxCol else c1
  let s ← mergeRows ext r0 r1 c0 c1 (r1 + 1 - r0).toNat r0 st.sheet
  pure { st with sheet := s }

/-- A hyperlink element, `/repo/xlsx/sheets.go:180-185`. -/
def linkElem (ext : Ext) (links : Bytes → Bytes) (attrs : List (Bytes × Bytes)) (st : WsSt) : GoRes WsSt := do
  let (c, r) ← refToIndexes (attr attrs (lit "ref"))
  let link := links (attr attrs (lit "id"))
  let s ← st.sheet.put ext r c (.str link) 0
  let s ← s.setURL r c link
  pure { st with sheet := s }

/-- One token, `/repo/xlsx/sheets.go:65-208`. -/
def sheetTok (ext : Ext) (d : Doc) (links : Bytes → Bytes) (t : Tok) (st : WsSt) : GoRes WsSt :=
  match t with
  | .chars v => charsTok ext d v st
  | .start name attrs =>
    if name = lit "dimension" then dimElem attrs st
    else if name = lit "c" then cElem d attrs st
    else if name = lit "mergeCell" then mergeElem ext attrs st
    else if name = lit "hyperlink" then linkElem ext links attrs st
    else .ok st
  | .stop name => .ok (if name = lit "c" then { st with cell := [] } else st)
  | .other => .ok st

/-- The loop of `parseSheet`, `/repo/xlsx/sheets.go:63-209`. -/
def sheetLoop (ext : Ext) (d : Doc) (links : Bytes → Bytes) : List Tok → WsSt → GoRes WsSt
  | [], st => .ok st
  | t :: ts, st => do sheetLoop ext d links ts (← sheetTok ext d links t st)

/-- `parseSheet`, `/repo/xlsx/sheets.go:29-214`: `s.wrapped` and the error. -/
def parseSheet (ext : Ext) (a : Archive) (d : Doc) (docname : Bytes) : GoRes (Sheet × Option GoErr) :=
  match openXML a docname with
  | .error e => .ok (Sheet.new d.fmt, some e)
  | .ok p => do
    let st ← sheetLoop ext d (linkMap a docname) p.toks ⟨[], [], 0, 0, 0, Sheet.new d.fmt⟩
    pure (st.sheet, finErr p.fin)

/-! ### Documents -/

/-- An `openXML` whose error is returned. -/
def openPart (a : Archive) (name : Bytes) : GoRes Part :=
  match openXML a name with
  | .ok p => .ok p
  | .error e => .err e

/-- The loop over the style parts, `/repo/xlsx/xlsx.go:105-116`. -/
def stylesParts (mk : Bytes → Fmt × CellType) (a : Archive) : List Bytes → Formatter × List Nat → GoRes (Formatter × List Nat)
  | [], st => .ok st
  | n :: ns, st => do
    let p ← openPart a n
    stylesParts mk a ns (← parseStyles mk p st.1)

/-- The loop over the shared string parts, `/repo/xlsx/xlsx.go:119-130`. -/
def stringsParts (a : Archive) : List Bytes → List Bytes → GoRes (List Bytes)
  | [], st => .ok st
  | n :: ns, st => do
    let p ← openPart a n
    stringsParts a ns (← parseSharedStrings p st)

/-- An error that says the file is not in this format, e.g. `/repo/xlsx/xlsx.go:67-69`. -/
def notXlsx {α : Type} : GoRes α → GoRes α
  | .err e => .err (wrapErr [e, .notInFormat])
  | x => x

/-- `Open`, `/repo/xlsx/xlsx.go:44-133`. `file` is the result of opening the file and reading the directory of the
archive: `.error (e, false)` if the file cannot be read, `.error (e, true)` if it is not a zip archive. `order` is the
order in which Go ranges over the values of a map: any permutation. -/
def openFile (mk : Bytes → Fmt × CellType) (order : List Bytes → List Bytes) (file : Except (GoErr × Bool) Archive) :
    GoRes Doc :=
  match file with
  | .error (e, false) => .err e
  | .error (e, true) => .err (wrapErr [e, .notInFormat])
  | .ok a => do
    let p ← notXlsx (openPart a (lit "_rels/.rels"))
    let st ← notXlsx (parseRels [] p ⟨[], []⟩)
    if st.primaryDoc = [] then .err (.msg "xlsx: invalid document")
    else do
      let p ← openPart a (relsOf st.primaryDoc)
      let st ← parseRels (dirOf st.primaryDoc) p st
      let p ← openPart a st.primaryDoc
      let sheets ← parseWorkbook st.rels p
      let (fmt, xfs) ← stylesParts mk a (order (st.rels.values tStyles)) (Formatter.new, [])
      let strings ← stringsParts a (order (st.rels.values tSharedStrings)) []
      pure ⟨st.rels, st.primaryDoc, sheets, strings, xfs, fmt⟩

/-- `List`, `/repo/xlsx/xlsx.go:152-158`. -/
def Doc.list (d : Doc) : List Bytes := d.sheets.map (·.name)

/-- The position of the first sheet with a name, `/repo/xlsx/xlsx.go:161-162`. -/
def Doc.find (d : Doc) (name : Bytes) : Option Nat := d.sheets.findIdx? (fun s => s.name == name)

/-- `Get`, `/repo/xlsx/xlsx.go:160-170`: the new state of the document, the index of the sheet (its `wrapped` is the
collection) and the error. -/
def Doc.get (ext : Ext) (a : Archive) (d : Doc) (name : Bytes) : GoRes (Doc × Nat × Option GoErr) :=
  match d.find name with
  | none => .err (.msg "xlsx: sheet not found")
  | some i =>
    match d.sheets[i]? with
    | none => .panic
    | some s =>
      match s.state with
      | some (_, e) => .ok (d, i, e)
      | none => do
        let r ← parseSheet ext a d s.docname
        pure ({ d with sheets := d.sheets.set i { s with state := some r } }, i, r.2)

/-- `Close`, `/repo/xlsx/xlsx.go:34-42` (the error of closing the file is not modelled). -/
def Doc.close (d : Doc) : Doc := { d with xfs := [], strings := [], sheets := [] }

end Grate.Xlsx
