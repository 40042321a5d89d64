import Verif.Model.Simple
import Verif.Model.Tokens

/-! # Model of `/repo/xlsx/types.go` and of the path functions used by `/repo/xlsx` -/

namespace Grate.Xlsx

open Grate

/-! ### Runes of a string -/

/-- Is the byte in the range? -/
def inRange (lo hi b : UInt8) : Bool := lo ≤ b && b ≤ hi

/-- The range of the second byte of a sequence of two or more bytes (`unicode/utf8`, the `acceptRanges` table). -/
def secondOk (b0 b1 : UInt8) : Bool :=
  if b0 = 0xE0 then inRange 0xA0 0xBF b1
  else if b0 = 0xED then inRange 0x80 0x9F b1
  else if b0 = 0xF0 then inRange 0x90 0xBF b1
  else if b0 = 0xF4 then inRange 0x80 0x8F b1
  else inRange 0x80 0xBF b1

/-- `utf8.DecodeRuneInString` (standard library) of a non-empty string: rune and width. -/
def decodeRune (b0 : UInt8) (rest : Bytes) : Nat × Nat :=
  if b0 < 0x80 then (b0.toNat, 1)
  else if inRange 0xC2 0xDF b0 then
    match rest with
    | b1 :: _ => if secondOk b0 b1 then ((b0.toNat - 0xC0) * 64 + (b1.toNat - 0x80), 2) else (0xFFFD, 1)
    | [] => (0xFFFD, 1)
  else if inRange 0xE0 0xEF b0 then
    match rest with
    | b1 :: b2 :: _ =>
      if secondOk b0 b1 && inRange 0x80 0xBF b2 then
        ((b0.toNat - 0xE0) * 4096 + (b1.toNat - 0x80) * 64 + (b2.toNat - 0x80), 3)
      else (0xFFFD, 1)
    | _ => (0xFFFD, 1)
  else if inRange 0xF0 0xF4 b0 then
    match rest with
    | b1 :: b2 :: b3 :: _ =>
      if secondOk b0 b1 && inRange 0x80 0xBF b2 && inRange 0x80 0xBF b3 then
        ((b0.toNat - 0xF0) * 262144 + (b1.toNat - 0x80) * 4096 + (b2.toNat - 0x80) * 64 + (b3.toNat - 0x80), 4)
      else (0xFFFD, 1)
    | _ => (0xFFFD, 1)
  else (0xFFFD, 1)

/-- The runes of `for _, c := range s`; `skip` bytes are left of the current rune. -/
def runesFrom : Nat → Bytes → List Nat
  | _, [] => []
  | k + 1, _ :: rest => runesFrom k rest
  | 0, b :: rest => (decodeRune b rest).1 :: runesFrom ((decodeRune b rest).2 - 1) rest

/-- `for _, c := range s` -/
def runes (s : Bytes) : List Nat := runesFrom 0 s

/-! ### References -/

/-- The result of Go `int` arithmetic: 64-bit two's complement. -/
def int64 (n : Int) : Int := n.bmod (2 ^ 64)

/-- The loop at `/repo/xlsx/types.go:50-53`. -/
def col2intLoop : Int → List Nat → Int
  | idx, [] => idx
  | idx, c :: cs => col2intLoop (int64 (int64 (idx * 26) + ((c : Int) - 64))) cs

/-- `col2int`, `/repo/xlsx/types.go:48-55`. -/
def col2int (col : Bytes) : Int := int64 (col2intLoop 0 (runes col) - 1)

/-- `strings.IndexAny(r, "0123456789")` (standard library; the set is ASCII, so bytes are compared). -/
def indexDigit (r : Bytes) : Option Nat := r.findIdx? isDigit

/-- `strings.IndexByte(r, b)` (standard library). -/
def indexByte (b : UInt8) (r : Bytes) : Option Nat := r.findIdx? (· == b)

/-- `s[lo:hi]` of a string: panics unless `lo ≤ hi ≤ len(s)`. -/
def strSub (s : Bytes) (lo hi : Nat) : GoRes Bytes :=
  if lo ≤ hi ∧ hi ≤ s.length then .ok ((s.take hi).drop lo) else .panic

/-- `refToIndexes`, `/repo/xlsx/types.go:57-80`: column and row. -/
def refToIndexes (r : Bytes) : GoRes (Int × Int) :=
  if r.length < 2 then .ok (-1, -1)
  else
    match indexDigit r with
    | none => .ok (-1, -1)
    | some 0 => .ok (-1, -1)
    | some i1 =>
      let col1 := r.take i1
      match indexByte 67 (r.drop i1) with
      | none => .ok (col2int col1, int64 ((parseInt 64 (r.drop i1)).1 - 1))
      | some i2 => do
        let col1 ← strSub r i1 i2
        let row1 ← strSub r (i2 + 1) r.length
        pure ((parseInt 64 col1).1, int64 ((parseInt 64 row1).1 - 1))

/-! ### Attributes -/

/-- `getAttrs` for one key, `/repo/xlsx/types.go:82-92`: the last value; empty if there is none. -/
def attr (attrs : List (Bytes × Bytes)) (key : Bytes) : Bytes :=
  attrs.foldl (fun res a => if a.1 = key then a.2 else res) []

/-- `vals[key]` and its presence, for the map made at `/repo/xlsx/workbook.go:24-27` and `66-69`. -/
def attr? (attrs : List (Bytes × Bytes)) (key : Bytes) : Option Bytes :=
  attrs.foldl (fun res a => if a.1 = key then some a.2 else res) none

/-! ### Paths (`path/filepath` on Unix) -/

/-- One element of a path in `filepath.Clean`, after the elements that are kept (last first): `.` and empty elements are
dropped, `..` removes the element before it, or is kept at the start of a relative path. -/
def cleanStep (rooted : Bool) (acc : List Bytes) (e : Bytes) : List Bytes :=
  if e = [] ∨ e = [46] then acc
  else if e = [46, 46] then
    match acc with
    | [] => if rooted then [] else [[46, 46]]
    | a :: as => if a = [46, 46] then [46, 46] :: a :: as else as
  else e :: acc

/-- The elements of a path that `filepath.Clean` keeps, last first. -/
def cleanElems (rooted : Bool) : List Bytes → List Bytes → List Bytes
  | acc, [] => acc
  | acc, e :: es => cleanElems rooted (cleanStep rooted acc e) es

/-- `filepath.Clean` (standard library). -/
def cleanPath (p : Bytes) : Bytes :=
  if p = [] then [46]
  else
    let rooted := p.head? == some 47
    let out := (if rooted then [47] else []) ++ joinByte 47 (cleanElems rooted [] (splitByte 47 p)).reverse
    if out = [] then [46] else out

/-- `filepath.Join` (standard library): leading empty elements are dropped. -/
def joinPath (elems : List Bytes) : Bytes :=
  match elems.dropWhile (· == []) with
  | [] => []
  | es => cleanPath (joinByte 47 es)

/-- `strings.TrimSuffix(s, suffix)` (standard library). -/
def trimSuffix (s suffix : Bytes) : Bytes :=
  if suffix.isSuffixOf s then s.take (s.length - suffix.length) else s

/-- The directory of a part, `/repo/xlsx/xlsx.go:80-81` and `/repo/xlsx/sheets.go:34-35`. -/
def dirOf (doc : Bytes) : Bytes := trimSuffix doc (Simple.basePath doc)

/-- The relationship part of a part, `/repo/xlsx/xlsx.go:80-82` and `/repo/xlsx/sheets.go:34-36`. -/
def relsOf (doc : Bytes) : Bytes := joinPath [dirOf doc, lit "_rels", Simple.basePath doc ++ lit ".rels"]

end Grate.Xlsx
