import Verif.Model.Format

/-! # Model of `/repo/commonxl/cell.go` -/

namespace Grate

/-- `Cell`, `/repo/commonxl/cell.go:50-55`: `empty` is the zero-length slice; `full v t fmt urls`
is `[v, t]`, followed by the format number when present, followed by links. -/
inductive Cell where
  | empty
  | full (v : Val) (t : CellType) (fmt : Option Nat) (urls : List Bytes)

/-- `Value`, `/repo/commonxl/cell.go:58-63`. -/
def Cell.value : Cell → Val
  | .empty => .str []
  | .full v _ _ _ => v

/-- `Type`, `/repo/commonxl/cell.go:85-90`. -/
def Cell.type : Cell → CellType
  | .empty => .blank
  | .full _ t _ _ => t

/-- `FormatNo`, `/repo/commonxl/cell.go:93-98`: only when the slice has exactly three elements. -/
def Cell.formatNo : Cell → Nat
  | .full _ _ (some n) [] => n
  | _ => 0

/-- `SetURL`, `/repo/commonxl/cell.go:66-73`. -/
def Cell.setURL (c : Cell) (link : Bytes) : GoRes Cell :=
  match c with
  | .empty => .panic
  | .full v _ none _ => .ok (.full v .hyperlink (some 0) [link])
  | .full v _ (some n) urls => .ok (.full v .hyperlink (some n) (urls ++ [link]))

/-- The raw link returned by `URL`, `/repo/commonxl/cell.go:76-82` (parsing of the link is not
modelled). -/
def Cell.url : Cell → Option Bytes
  | .full _ .hyperlink (some _) (u :: _) => some u
  | _ => none

/-- `SetFormatNumber`, `/repo/commonxl/cell.go:306-317`. -/
def Cell.setFormatNumber (c : Cell) (f : Nat) : GoRes Cell :=
  match c with
  | .empty => .panic
  | .full v t _ urls => if f = 0 then .ok (.full v t none []) else .ok (.full v t (some f) urls)

/-- Argument types of `NewCell`, `/repo/commonxl/cell.go:199-303`. -/
inductive GoVal where
  | bool (b : Bool)
  /-- `int`, `int8`, `int16`, `int32`, `int64` -/
  | sint (n : Int)
  /-- `uint8`, `uint16`, `uint32` -/
  | usmall (n : Nat)
  | uint (n : Nat)
  | uint64 (n : Nat)
  | f32 (x : Float32)
  | f64 (x : Float)
  | str (s : Bytes)
  | bytes (s : Bytes)
  | utf16 (us : List Nat)
  /-- `[]rune`; negative runes are represented by a value above 0x10FFFF -/
  | runes (rs : List Nat)
  | time (t : Time)
  /-- any other type with a `String` method, by its result -/
  | stringer (s : Bytes)
  /-- any other type (including nil) -/
  | other

/-- Two's complement wrap to 64 bits: `int64(v)` of a `uint`. -/
def wrap64 (n : Nat) : Int := if n < 2 ^ 63 then n else (n : Int) - 2 ^ 64

/-- Go conversion `float64(v)` of a `float32` (exact). -/
def f64OfF32 (x : Float32) : Float := x.toFloat

/-- Text cell: blank when empty, `/repo/commonxl/cell.go:254-261`. -/
def textCell (s : Bytes) : Cell :=
  if s = [] then .full .nil .blank none [] else .full (.str s) .string none []

/-- `NewCell`, `/repo/commonxl/cell.go:199-303`. -/
def newCell : GoVal → GoRes Cell
  | .bool b => .ok (.full (.bool b) .boolean none [])
  | .sint n => .ok (.full (.int n) .integer none [])
  | .usmall n => .ok (.full (.int n) .integer none [])
  | .uint n =>
    -- `int64(v) > int64(math.MaxInt64)` can never hold
    if wrap64 n > 2 ^ 63 - 1 then .ok (.full (.float (f64OfNat n)) .float none [])
    else .ok (.full (.int (wrap64 n)) .integer none [])
  | .uint64 n =>
    if n > 2 ^ 63 - 1 then .ok (.full (.float (f64OfNat n)) .float none [])
    else .ok (.full (.int (wrap64 n)) .integer none [])
  | .f32 x => .ok (.full (.float (f64OfF32 x)) .float none [])
  | .f64 x => .ok (.full (.float x) .float none [])
  | .str s => .ok (textCell s)
  | .bytes s => .ok (textCell s)
  | .utf16 us => .ok (if us = [] then .full .nil .blank none []
      else .full (.str (utf8Encode (utf16Decode us))) .string none [])
  | .runes rs => .ok (if rs = [] then .full .nil .blank none []
      else .full (.str (utf8Encode rs)) .string none [])
  | .time t => .ok (.full (.time t) .date none [])
  | .stringer s => .ok (textCell s)
  | .other => .panic

/-- `boolStrings`, `/repo/commonxl/cell.go:111-116` (missing keys give false). -/
def boolStrings (s : Bytes) : Bool :=
  s ∈ [lit "yes", lit "true", lit "t", lit "y", lit "1", lit "on",
       lit "YES", lit "TRUE", lit "T", lit "Y", lit "1.0", lit "ON"]

/-- First block of `NewCellWithType` (booleans), `/repo/commonxl/cell.go:126-149`. -/
def coerceBool (t : CellType) (v : Val) (ty : CellType) : Val × CellType :=
  match v, ty with
  | .bool b, .boolean =>
    match t with
    | .integer => (.int (if b then 1 else 0), .integer)
    | .float => (.float (if b then 1 else 0), .float)
    | .string => (.str (if b then lit "TRUE" else lit "FALSE"), .float)
    | _ => (v, ty)
  | _, _ => (v, ty)

/-- Second block (floats), `/repo/commonxl/cell.go:151-159`. Only reached with a float value when a
conversion is requested. -/
def coerceFloat (t : CellType) (v : Val) (ty : CellType) : Val × CellType :=
  match v, ty with
  | .float x, .float =>
    match t with
    | .integer => (.int (f64ToInt x), .integer)
    | .boolean => (.bool (x != 0), .boolean)
    | _ => (v, ty)
  | _, _ => (v, ty)

/-- Third block (integers), `/repo/commonxl/cell.go:160-168`. -/
def coerceInt (t : CellType) (v : Val) (ty : CellType) : Val × CellType :=
  match v, ty with
  | .int n, .integer =>
    match t with
    | .float => (.float (f64OfInt n), .float)
    | .boolean => (.bool (n != 0), .boolean)
    | _ => (v, ty)
  | _, _ => (v, ty)

/-- Fourth block (strings), `/repo/commonxl/cell.go:169-182`. -/
def coerceStr (ext : Ext) (t : CellType) (v : Val) (ty : CellType) : Val × CellType :=
  match v, ty with
  | .str s, .string =>
    match t with
    | .integer => (.int (parseInt 64 s).1, .integer)
    | .float => (.float (ext.parseFloat s).1, .float)
    | .boolean => (.bool (boolStrings s), .boolean)
    | _ => (v, ty)
  | _, _ => (v, ty)

/-- Last blocks (string and date targets), `/repo/commonxl/cell.go:183-194`. -/
def coerceLast (ext : Ext) (m1904 : Bool) (t : CellType) (v : Val) (ty : CellType) : Val × CellType :=
  match t with
  | .string => (.str (sprint ext v), .string)
  | .date =>
    match v, ty with
    | .float x, .float => (.time (convertToDate m1904 x), .date)
    | .int n, .integer => (.time (convertToDate m1904 (f64OfInt n)), .date)
    | v, _ => (v, .date)
  | _ => (v, ty)

/-- All conversion blocks of `NewCellWithType` in order, `/repo/commonxl/cell.go:126-194`. -/
def coerce (ext : Ext) (m1904 : Bool) (t : CellType) (v : Val) (ty : CellType) : Val × CellType :=
  let (v, ty) := coerceBool t v ty
  let (v, ty) := coerceFloat t v ty
  let (v, ty) := coerceInt t v ty
  let (v, ty) := coerceStr ext t v ty
  coerceLast ext m1904 t v ty

/-- `NewCellWithType`, `/repo/commonxl/cell.go:119-196`. -/
def newCellWithType (ext : Ext) (m1904 : Bool) (value : GoVal) (t : CellType) : GoRes Cell := do
  let c ← newCell value
  match c with
  | .empty => pure .empty
  | .full v ty f u =>
    if ty = t then pure (.full v ty f u)
    else
      let (v, ty) := coerce ext m1904 t v ty
      pure (.full v ty f u)

/-- Go `<` on strings: lexicographic on bytes. -/
def bytesLt : Bytes → Bytes → Bool
  | _, [] => false
  | [], _ :: _ => true
  | a :: as, b :: bs => a < b || (a == b && bytesLt as bs)

/-- `c[0]` of a cell; indexing an empty slice panics. -/
def Cell.at0 : Cell → GoRes Val
  | .empty => .panic
  | .full v _ _ _ => .ok v

/-- The float64 constants `math.MinInt64` / `math.MaxInt64` are converted to. -/
def minI64F : Float := f64OfInt (-(2 ^ 63))
/-- see `minI64F` -/
def maxI64F : Float := f64OfInt (2 ^ 63)

/-- `Less`, `/repo/commonxl/cell.go:346-463`. -/
def Cell.less (ext : Ext) (c other : Cell) : GoRes Bool :=
  match c with
  | .empty => .ok false
  | .full v1 _ _ _ =>
    match v1 with
    | .nil => .ok false
    | .bool true => .ok false
    | .bool false => do
      match ← other.at0 with
      | .nil => pure false
      | .bool v2 => pure v2
      | .int v2 => pure (v2 != 0)
      | .float v2 => pure (v2 != 0)
      | .str v2 => pure (boolStrings v2)
      | .time _ => .panic
    | .int v1 => do
      match ← other.at0 with
      | .nil => pure false
      | .bool v2 => pure (v1 < (if v2 then 1 else 0))
      | .int v2 => pure (v1 < v2)
      | .float v2 =>
        if v2 < minI64F then pure false
        else if v2 > maxI64F then pure true
        else pure (f64OfInt v1 < v2)
      | .str v2 =>
        match ext.scanD v2 with
        | some x => pure (v1 < x)
        | none => pure (bytesLt (decInt v1) v2)
      | .time _ => .panic
    | .float v1 => do
      match ← other.at0 with
      | .nil => pure false
      | .bool v2 => pure (v1 < (if v2 then 1 else 0))
      | .int v2 =>
        if v1 < minI64F then pure true
        else if v1 > maxI64F then pure false
        else pure (v1 < f64OfInt v2)
      | .float v2 => pure (v1 < v2)
      | .str v2 =>
        match ext.scanG v2 with
        | some x => pure (v1 < x)
        | none => pure (bytesLt (ext.floatV v1) v2)
      | .time _ => .panic
    | .str v1 => do
      match ← other.at0 with
      | .nil => pure false
      | .bool v2 => pure (v2 && !boolStrings v1)
      | .int v2 =>
        match ext.scanD v1 with
        | some x => pure (x < v2)
        | none => pure (bytesLt v1 (decInt v2))
      | .float v2 =>
        match ext.scanG v1 with
        | some x => pure (x < v2)
        | none => pure (bytesLt v1 (ext.floatV v2))
      | .str v2 => pure (bytesLt v1 v2)
      | .time _ => .panic
    | .time _ => .panic

/-- Is the type numeric (`/repo/commonxl/cell.go:320-321`)? -/
def CellType.numeric : CellType → Bool
  | .float => true
  | .integer => true
  | _ => false

/-- `Equal`, `/repo/commonxl/cell.go:319-344`. Note that the fall-back for `other` scans `c[0]`. -/
def Cell.equal (ext : Ext) (c other : Cell) : GoRes Bool :=
  if c.type.numeric || other.type.numeric then do
    let v ← c.at0
    let fromC := (ext.scanG (sprint ext v)).getD 0
    let v1 := match v with
      | .float x => x
      | .int n => f64OfInt n
      | _ => fromC
    let w ← other.at0
    let v2 := match w with
      | .float x => x
      | .int n => f64OfInt n
      | _ => fromC
    pure (v1 == v2)
  else do
    let a ← c.less ext other
    let b ← other.less ext c
    pure (a == b)

end Grate
