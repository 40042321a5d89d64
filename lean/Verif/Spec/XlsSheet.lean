import Verif.Spec.Hyperlinks
import Verif.Spec.Sheet
import Verif.Spec.XlsStream

/-! # Specification: the records of a worksheet and the cells they describe (MS-XLS 2.4), independent of the
models of `/repo/xls` -/

namespace Grate.Spec

open Grate

/-! ### Compressed numbers (RkNumber, 2.5.217)

Bit 0: the value is divided by 100. Bit 1: the upper 30 bits are a signed integer, else the upper bits of a double. -/

/-- The upper 30 bits as a signed integer. -/
def rkSigned (r : Nat) : Int := if r / 4 < 2 ^ 29 then (r / 4 : Nat) else (r / 4 : Nat) - 2 ^ 30

/-- The double whose most significant 30 bits are given and whose other bits are zero. -/
def rkDouble (r : Nat) : Float := Float.ofBits (UInt64.ofNat (r / 4 * 2 ^ 34))

/-- The value of a compressed number. -/
def rkMeans (r : Nat) : GoVal :=
  match r % 4 with
  | 0 => .f64 (rkDouble r)
  | 1 => .f64 (rkDouble r / f64OfNat 100)
  | 2 => .sint (rkSigned r)
  | _ => .f64 (f64OfInt (rkSigned r) / f64OfNat 100)

/-! ### Writes -/

/-- What is written to a cell: a value with a number format, a plain text with a number format, or a link. -/
inductive What where
  | value (v : GoVal) (fmt : Nat)
  | text (t : Bytes) (fmt : Nat)
  | link (l : Bytes)

/-- A write to a cell. -/
structure Write where
  row : Nat
  col : Nat
  what : What

/-- The last write to a cell. -/
def lastAt (r c : Nat) : List Write → Option What
  | [] => none
  | w :: ws =>
    match lastAt r c ws with
    | some x => some x
    | none => if w.row = r ∧ w.col = c then some w.what else none

/-- The cell shows what was written: for a value, the cell that writing it to a new sheet gives (see C10–C14, C19,
C20). -/
def Shows (ext : Ext) (f : Formatter) : What → Cell → Prop
  | .value v n, x => Builds ext f v n x
  | .text t n, x => x.value = .str t ∧ x.type = .string ∧ x.formatNo = n
  | .link l, x => x.value = (if l = [] then .nil else .str l) ∧ x.type = .hyperlink ∧ x.formatNo = 0 ∧ x.url = some l

/-! ### Error codes (BErr, 2.5.10) -/

/-- The text of an error code. -/
def errorText (c : UInt8) : Bytes :=
  match c.toNat with
  | 0x00 => lit "#NULL!"
  | 0x07 => lit "#DIV/0!"
  | 0x0F => lit "#VALUE!"
  | 0x17 => lit "#REF!"
  | 0x1D => lit "#NAME?"
  | 0x24 => lit "#NUM!"
  | 0x2A => lit "#N/A"
  | 0x2B => lit "#GETTING_DATA"
  | _ => lit "<unknown error>"

/-! ### Regions -/

/-- A rectangle of cells, with the last row and column included. -/
structure Region where
  r0 : Nat
  r1 : Nat
  c0 : Nat
  c1 : Nat

/-- The fields are 16-bit values. -/
def Region.Fits (g : Region) : Prop := g.r0 < 65536 ∧ g.r1 < 65536 ∧ g.c0 < 65536 ∧ g.c1 < 65536

/-- The bytes of a region (Ref8, 2.5.211). -/
def Region.bytes (g : Region) : Bytes := leBytes 2 g.r0 ++ (leBytes 2 g.r1 ++ (leBytes 2 g.c0 ++ leBytes 2 g.c1))

/-- Regions reaching to the last row (0xFFFF) or column (0xFF) of the format end with the sheet. -/
def Region.clip (maxRow maxCol : Nat) (g : Region) : Region :=
  { g with r1 := if g.r1 = 0xFFFF then maxRow - 1 else g.r1, c1 := if g.c1 = 0xFF then maxCol - 1 else g.c1 }

/-- Clipping needs a sheet with a size in the range of the format. -/
def Region.Clips (maxRow maxCol : Nat) (g : Region) : Prop :=
  (g.r1 = 0xFFFF → 1 ≤ maxRow ∧ maxRow ≤ 65536) ∧ (g.c1 = 0xFF → 1 ≤ maxCol ∧ maxCol ≤ 65536)

/-- The markers of the cells of a merged region (`/repo/grate.go`: the documented constants): the rest of the first
column continues the row, down to the last row; all other cells continue the column, up to the last column. -/
inductive Marked (g : Region) : Nat → Nat → Bytes → Prop
  | contRow (r : Nat) : g.r0 < r → r < g.r1 → g.c0 ≤ g.c1 → Marked g r g.c0 (lit "↓")
  | endRow : g.r0 < g.r1 → g.c0 ≤ g.c1 → Marked g g.r1 g.c0 (lit "⤓")
  | contCol (r c : Nat) : g.r0 ≤ r → r ≤ g.r1 → g.c0 < c → c < g.c1 → Marked g r c (lit "→")
  | endCol (r : Nat) : g.r0 ≤ r → r ≤ g.r1 → g.c0 < g.c1 → Marked g r g.c1 (lit "⇥")

/-- The writes of a region: at most one to each cell, `top` to the first. -/
structure RegionWrites (g : Region) (top : Option Bytes) (ws : List Write) : Prop where
  /-- every cell that has a marker gets it -/
  marked : ∀ r c m, Marked g r c m → lastAt r c ws = some (.value (.str m) 0)
  /-- the first cell -/
  first : g.r0 ≤ g.r1 → g.c0 ≤ g.c1 → lastAt g.r0 g.c0 ws = top.map (fun t => .value (.str t) 0)
  /-- no other cell is written -/
  other : ∀ r c, ¬ (g.r0 ≤ r ∧ r ≤ g.r1 ∧ g.c0 ≤ c ∧ c ≤ g.c1) → lastAt r c ws = none

/-! ### Strings of formulas -/

/-- One record of the result string of a formula: its flags and characters. -/
structure TextPart where
  flags : UInt8
  text : List Nat

/-- The bytes of a part. -/
def TextPart.bytes (p : TextPart) : Bytes := p.flags :: charBytes (bit p.flags 0) (p.text.flatMap units)

/-- Parts that are handled: narrow characters are ASCII; sizes are those of records. -/
structure TextPart.Ok (p : TextPart) : Prop where
  scalar : ∀ r ∈ p.text, Scalar r
  narrow : bit p.flags 0 = false → ∀ r ∈ p.text, r < 128
  size : (p.text.flatMap units).length ≤ 8224

/-! ### The records of a worksheet -/

/-- The record types with a meaning for cells: BOF, BoolErr, MulRk, Number, RK, Formula, String, LabelSst, HLink,
MergeCells. -/
def cellType (t : Nat) : Prop :=
  t = 0x809 ∨ t = 517 ∨ t = 189 ∨ t = 515 ∨ t = 638 ∨ t = 6 ∨ t = 519 ∨ t = 253 ∨ t = 440 ∨ t = 229

/-- The head of a cell record: row, column and style (Cell, 2.5.13). -/
def cellHead (row col xf : Nat) (rest : Bytes) : Bytes := leBytes 2 row ++ (leBytes 2 col ++ (leBytes 2 xf ++ rest))

/-- The fields of the head are 16-bit values. -/
def HeadFits (row col xf : Nat) : Prop := row < 65536 ∧ col < 65536 ∧ xf < 65536

/-- The number format of a style; General if there is no such style. -/
def styleFormat (styles : List Nat) (xf : Nat) : Nat := styles.getD xf 0

/-- The writes of a list of values in consecutive columns. -/
def rowWrites (styles : List Nat) (row : Nat) : Nat → List (Nat × Nat) → List Write
  | _, [] => []
  | col, (xf, rk) :: vs => ⟨row, col, .value (rkMeans rk) (styleFormat styles xf)⟩ :: rowWrites styles row (col + 1) vs

/-- The writes of the regions of a list, one after another. -/
inductive AllRegions (maxRow maxCol : Nat) : List Region → List Write → Prop
  | nil : AllRegions maxRow maxCol [] []
  | cons (g : Region) (gs : List Region) (ws vs : List Write) : g.Fits → g.Clips maxRow maxCol →
      RegionWrites (g.clip maxRow maxCol) none ws → AllRegions maxRow maxCol gs vs →
      AllRegions maxRow maxCol (g :: gs) (ws ++ vs)

/-- The records of a worksheet (after its BOF) and the cells they write; `strings` are the shared strings, `styles` the
formats of the cell styles, `maxRow` and `maxCol` the size of the sheet. -/
inductive SheetRecs (strings : List (List Nat)) (styles : List Nat) (maxRow maxCol : Nat) :
    List Record → List Write → Prop
  | nil : SheetRecs strings styles maxRow maxCol [] []
  /-- records without a meaning for cells -/
  | other (r : Record) (rs : List Record) (ws : List Write) : ¬ cellType r.type →
      SheetRecs strings styles maxRow maxCol rs ws → SheetRecs strings styles maxRow maxCol (r :: rs) ws
  /-- an embedded block -/
  | block (b e : Record) (inner rs : List Record) (ws : List Write) : b.type = 0x809 → e.type = 0x0A →
      (∀ r ∈ inner, r.type ≠ 0x0A) → SheetRecs strings styles maxRow maxCol rs ws →
      SheetRecs strings styles maxRow maxCol (b :: (inner ++ e :: rs)) ws
  /-- a number (2.4.180) -/
  | number (row col xf bits : Nat) (tail : Bytes) (rs : List Record) (ws : List Write) : HeadFits row col xf →
      bits < 2 ^ 64 → SheetRecs strings styles maxRow maxCol rs ws →
      SheetRecs strings styles maxRow maxCol (⟨515, cellHead row col xf (leBytes 8 bits ++ tail)⟩ :: rs)
        (⟨row, col, .value (.f64 (Float.ofBits (UInt64.ofNat bits))) (styleFormat styles xf)⟩ :: ws)
  /-- a compressed number (2.4.220) -/
  | rk (row col xf r : Nat) (tail : Bytes) (rs : List Record) (ws : List Write) : HeadFits row col xf → r < 2 ^ 32 →
      r % 4 ≠ 3 → SheetRecs strings styles maxRow maxCol rs ws →
      SheetRecs strings styles maxRow maxCol (⟨638, cellHead row col xf (leBytes 4 r ++ tail)⟩ :: rs)
        (⟨row, col, .value (rkMeans r) (styleFormat styles xf)⟩ :: ws)
  /-- several compressed numbers in a row (2.4.175): styles and values, the last column -/
  | mulRk (row col last : Nat) (vs : List (Nat × Nat)) (rs : List Record) (ws : List Write) : row < 65536 → col < 65536 →
      6 * vs.length + 6 < 65536 → (∀ v ∈ vs, v.1 < 65536 ∧ v.2 < 2 ^ 32 ∧ v.2 % 4 ≠ 3) →
      SheetRecs strings styles maxRow maxCol rs ws →
      SheetRecs strings styles maxRow maxCol
        (⟨189, leBytes 2 row ++ (leBytes 2 col ++ (vs.flatMap (fun v => leBytes 2 v.1 ++ leBytes 4 v.2) ++ leBytes 2 last))⟩
          :: rs)
        (rowWrites styles row col vs ++ ws)
  /-- a boolean (2.4.24) -/
  | bool (row col xf : Nat) (v : UInt8) (tail : Bytes) (rs : List Record) (ws : List Write) : HeadFits row col xf →
      SheetRecs strings styles maxRow maxCol rs ws →
      SheetRecs strings styles maxRow maxCol (⟨517, cellHead row col xf (v :: 0 :: tail)⟩ :: rs)
        (⟨row, col, .value (.bool (v = 1)) (styleFormat styles xf)⟩ :: ws)
  /-- an error; it is shown without a number format -/
  | error (row col xf : Nat) (v k : UInt8) (tail : Bytes) (rs : List Record) (ws : List Write) : HeadFits row col xf →
      k ≠ 0 → SheetRecs strings styles maxRow maxCol rs ws →
      SheetRecs strings styles maxRow maxCol (⟨517, cellHead row col xf (v :: k :: tail)⟩ :: rs)
        (⟨row, col, .value (.str (errorText v)) 0⟩ :: ws)
  /-- a shared string (2.4.149); an empty one writes nothing -/
  | label (row col xf i : Nat) (t : List Nat) (tail : Bytes) (rs : List Record) (ws : List Write) : HeadFits row col xf →
      i < 2 ^ 32 → strings[i]? = some t → SheetRecs strings styles maxRow maxCol rs ws →
      SheetRecs strings styles maxRow maxCol (⟨253, cellHead row col xf (leBytes 4 i ++ tail)⟩ :: rs)
        ((if t = [] then [] else [⟨row, col, .value (.str (utf8 t)) (styleFormat styles xf)⟩]) ++ ws)
  /-- a formula with a number as its result (2.4.127): the upper 16 bits are not all set -/
  | formula (row col xf bits : Nat) (tail : Bytes) (rs : List Record) (ws : List Write) : HeadFits row col xf →
      bits < 2 ^ 64 → bits / 2 ^ 48 ≠ 0xFFFF → SheetRecs strings styles maxRow maxCol rs ws →
      SheetRecs strings styles maxRow maxCol (⟨6, cellHead row col xf (leBytes 8 bits ++ tail)⟩ :: rs)
        (⟨row, col, .value (.f64 (Float.ofBits (UInt64.ofNat bits))) (styleFormat styles xf)⟩ :: ws)
  /-- a formula with a boolean result -/
  | formulaBool (row col xf : Nat) (u v x y z : UInt8) (tail : Bytes) (rs : List Record) (ws : List Write) :
      HeadFits row col xf → SheetRecs strings styles maxRow maxCol rs ws →
      SheetRecs strings styles maxRow maxCol
        (⟨6, cellHead row col xf (1 :: u :: v :: x :: y :: z :: 0xFF :: 0xFF :: tail)⟩ :: rs)
        (⟨row, col, .value (.bool (v ≠ 0)) (styleFormat styles xf)⟩ :: ws)
  /-- a formula with an error as its result -/
  | formulaError (row col xf : Nat) (u v x y z : UInt8) (tail : Bytes) (rs : List Record) (ws : List Write) :
      HeadFits row col xf → SheetRecs strings styles maxRow maxCol rs ws →
      SheetRecs strings styles maxRow maxCol
        (⟨6, cellHead row col xf (2 :: u :: v :: x :: y :: z :: 0xFF :: 0xFF :: tail)⟩ :: rs)
        (⟨row, col, .value (.str (errorText v)) 0⟩ :: ws)
  /-- a formula with an empty result -/
  | formulaBlank (row col xf : Nat) (u v x y z : UInt8) (tail : Bytes) (rs : List Record) (ws : List Write) :
      HeadFits row col xf → SheetRecs strings styles maxRow maxCol rs ws →
      SheetRecs strings styles maxRow maxCol
        (⟨6, cellHead row col xf (3 :: u :: v :: x :: y :: z :: 0xFF :: 0xFF :: tail)⟩ :: rs) ws
  /-- a formula with a text as its result: it is in a String record (2.4.268) and the Continue records after it; other
  records (Array, Table, ShrFmla) can come in between. A wide text is in one record. -/
  | formulaText (row col xf count : Nat) (u v x y z : UInt8) (tail : Bytes) (mid : List Record) (p : TextPart)
      (ps : List TextPart) (rs : List Record) (ws : List Write) :
      HeadFits row col xf → (∀ m ∈ mid, ¬ cellType m.type) → p.Ok → (∀ q ∈ ps, q.Ok) →
      count = ((p :: ps).flatMap (fun q => q.text.flatMap units)).length → count < 65536 →
      (bit p.flags 0 = true → ps = []) → (∀ r, rs.head? = some r → r.type ≠ 0x3C) →
      SheetRecs strings styles maxRow maxCol rs ws →
      SheetRecs strings styles maxRow maxCol
        (⟨6, cellHead row col xf (0 :: u :: v :: x :: y :: z :: 0xFF :: 0xFF :: tail)⟩ ::
          (mid ++ ⟨519, leBytes 2 count ++ p.bytes⟩ :: (ps.map (fun q => ⟨0x3C, q.bytes⟩) ++ rs)))
        (⟨row, col, .text (utf8 ((p :: ps).flatMap TextPart.text)) (styleFormat styles xf)⟩ :: ws)
  /-- merged regions (2.4.168) -/
  | merge (gs : List Region) (tail : Bytes) (vs : List Write) (rs : List Record) (ws : List Write) :
      gs.length < 65536 → AllRegions maxRow maxCol gs vs → SheetRecs strings styles maxRow maxCol rs ws →
      SheetRecs strings styles maxRow maxCol
        (⟨229, leBytes 2 gs.length ++ (gs.flatMap Region.bytes ++ tail)⟩ :: rs) (vs ++ ws)
  /-- a hyperlink (2.4.140): its text and link are shown in the first cell of its region; a location takes the place of
  the target (see C52) -/
  | hlink (g : Region) (h : Hyper) (cls tail : Bytes) (d l : Bytes) (vs : List Write) (rs : List Record)
      (ws : List Write) : g.Fits → g.Clips maxRow maxCol → g.r0 ≤ maxRow → g.c0 ≤ maxCol → h.Ok → cls.length = 16 →
      Trims (utf8 (h.display.getD [])) d → Trims (utf8 (h.location.getD h.target.show)) l →
      RegionWrites (g.clip maxRow maxCol) (some (d ++ lit " <" ++ l ++ lit ">")) vs →
      SheetRecs strings styles maxRow maxCol rs ws →
      SheetRecs strings styles maxRow maxCol (⟨440, g.bytes ++ (h.bytes cls ++ tail)⟩ :: rs) (vs ++ ws)

/-- The records of a worksheet (after its BOF) declare its size: `(maxRow, maxCol)` before and after. -/
inductive Declares : Nat × Nat → List Record → Nat × Nat → Prop
  | nil (m : Nat × Nat) : Declares m [] m
  | other (m m' : Nat × Nat) (r : Record) (rs : List Record) : r.type ≠ 0x809 → r.type ≠ 129 → r.type ≠ 512 →
      Declares m rs m' → Declares m (r :: rs) m'
  | block (m m' : Nat × Nat) (b e : Record) (inner rs : List Record) : b.type = 0x809 → e.type = 0x0A →
      (∀ r ∈ inner, r.type ≠ 0x0A) → Declares m rs m' → Declares m (b :: (inner ++ e :: rs)) m'
  /-- WsBool (2.4.351) of a sheet that is not a dialog -/
  | wsBool (m m' : Nat × Nat) (x y : UInt8) (tail : Bytes) (rs : List Record) : bit y 4 = false → Declares m rs m' →
      Declares m (⟨129, x :: y :: tail⟩ :: rs) m'
  /-- Dimensions (2.4.90): the first row, the row after the last, the first column, the column after the last -/
  | dims (m m' : Nat × Nat) (r0 r1 c0 c1 : Nat) (tail : Bytes) (rs : List Record) : r1 < 2 ^ 32 → c1 < 65536 →
      Declares (r1, c1) rs m' →
      Declares m (⟨512, leBytes 4 r0 ++ (leBytes 4 r1 ++ (leBytes 2 c0 ++ (leBytes 2 c1 ++ tail)))⟩ :: rs) m'

/-- How many Dimensions records there are. -/
def dimsCount (rs : List Record) : Nat := (rs.filter (fun r => r.type = 512)).length

end Grate.Spec
