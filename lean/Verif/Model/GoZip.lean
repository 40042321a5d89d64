import Verif.Model.GoXml
import Verif.Model.Cfb

/-! # `archive/zip` as `xlsx.Open` uses it

`zip.NewReader` (`/repo/xlsx/xlsx.go:53`) and `File.Open` (`/repo/xlsx/xlsx.go:141`) with reading the member to its end, after
Go 1.16, `archive/zip/reader.go` (the library is not in this sandbox; written from its documentation and knowledge of it). Not
modelled, and parameters here: the decompressor of `compress/flate`, the checksum of `hash/crc32`, and the records of the Zip64
extension. Simplified: all bytes of a member are given to its reader before the error that ends it. -/

namespace Grate.Zip

open Grate Grate.Cfb

/-- The end record of the directory: the number of members, the size of the directory and its offset. -/
structure End where
  records : Nat
  size : Nat
  offset : Nat

/-- A header of the directory (`zip.FileHeader`). -/
structure Entry where
  name : Bytes
  flags : Nat
  method : Nat
  crc : Nat
  csize : Nat
  usize : Nat
  offset : Nat

/-- The parts of Go's library that are not modelled. -/
structure ZipLib where
  /-- `flate.NewReader` on compressed bytes, read to its end: the bytes, and the error that it ends with (`eof` if none) -/
  inflate : Bytes → Bytes × GoErr
  /-- `crc32.NewIEEE` -/
  crc : Bytes → Nat
  /-- `readDirectory64End` for a file, the offset of its locator and its end record -/
  end64 : Bytes → Nat → End → Except GoErr End
  /-- the Zip64 field among the extra fields of a header -/
  extra64 : Bytes → Entry → Except GoErr Entry

/-- `zip.ErrFormat`. -/
def errFormat : GoErr := .msg "zip: not a valid zip file"

/-- `zip.ErrAlgorithm`. -/
def errAlgorithm : GoErr := .msg "zip: unsupported compression algorithm"

/-- `zip.ErrChecksum`. -/
def errChecksum : GoErr := .msg "zip: checksum error"

/-- The test in the loop of `findSignatureInBlock`. -/
def endAt (b : Bytes) (i : Nat) : Bool :=
  field b i 4 == 0x06054b50 && field b (i + 20) 2 + 22 + i ≤ b.length

/-- `findSignatureInBlock`: the last of the first `n` positions where an end record can be. -/
def findSig (b : Bytes) : Nat → Option Nat
  | 0 => none
  | n + 1 => if endAt b n then some n else findSig b n

/-- One round of the loop of `readDirectoryEnd`: the last `k` bytes of the file. -/
def findIn (file : Bytes) (k : Nat) : Option Nat :=
  (findSig (file.drop (file.length - k)) (k - 21)).map (file.length - k + ·)

/-- The loop of `readDirectoryEnd`: the last 1024 bytes, then the last 65 * 1024. -/
def findEnd (file : Bytes) : Option Nat :=
  match findIn file (min 1024 file.length) with
  | some e => some e
  | none => if file.length ≤ 1024 then none else findIn file (min 66560 file.length)

/-- `readDirectoryEnd`. -/
def readEnd (Z : ZipLib) (file : Bytes) : Except GoErr End :=
  match findEnd file with
  | none => .error errFormat
  | some e =>
    if file.length < e + 22 + field file (e + 20) 2 then .error (.msg "zip: invalid comment length") else
    let d : End := ⟨field file (e + 10) 2, field file (e + 12) 4, field file (e + 16) 4⟩
    let r := if (d.records = 0xFFFF ∨ d.size = 0xFFFF ∨ d.offset = 0xFFFFFFFF) ∧ 20 ≤ e ∧ field file (e - 20) 4 = 0x07064b50 then
      Z.end64 file (e - 20) d else .ok d
    match r with
    | .error er => .error er
    | .ok d => if file.length ≤ d.offset then .error errFormat else .ok d

/-- How reading headers stops: with `ErrFormat`, with `io.ErrUnexpectedEOF`, or with another error. -/
inductive Stop where
  | format
  | short
  | fail (e : GoErr)

/-- The error itself. -/
def Stop.err : Stop → GoErr
  | .format => errFormat
  | .short => .unexpectedEOF
  | .fail e => e

/-- `io.ReadFull` of `n` bytes of `b`. -/
def readFull (n : Nat) (b : Bytes) : Option Stop :=
  if n ≤ b.length then none else if b.length = 0 then some (.fail .eof) else some .short

/-- `readDirectoryHeader`: the header and what follows it. -/
def readHeader (Z : ZipLib) (b : Bytes) : Except Stop (Entry × Bytes) :=
  match readFull 46 b with
  | some s => .error s
  | none =>
    if field b 0 4 ≠ 0x02014b50 then .error .format else
    let n := field b 28 2
    let x := field b 30 2
    let c := field b 32 2
    let d := b.drop 46
    match readFull (n + x + c) d with
    | some s => .error s
    | none =>
      let e : Entry := ⟨d.take n, field b 8 2, field b 10 2, field b 16 4, field b 20 4, field b 24 4, field b 42 4⟩
      let r := if e.csize = 0xFFFFFFFF ∨ e.usize = 0xFFFFFFFF ∨ e.offset = 0xFFFFFFFF then
        Z.extra64 ((d.drop n).take x) e else .ok e
      match r with
      | .error _ => .error .format
      | .ok e => .ok (e, d.drop (n + x + c))

/-- The loop over the headers in `(*Reader).init`; every header takes 46 bytes at least, so `fuel` is the number of bytes. -/
def readDir (Z : ZipLib) : (fuel : Nat) → Bytes → List Entry × Stop
  | 0, _ => ([], .fail .eof)
  | n + 1, b =>
    match readHeader Z b with
    | .error s => ([], s)
    | .ok (e, rest) =>
      let r := readDir Z n rest
      (e :: r.1, r.2)

/-- `zip.NewReader`: the number of headers is compared in 16 bits. -/
def newReader (Z : ZipLib) (file : Bytes) : Except GoErr (List Entry) :=
  match readEnd Z file with
  | .error e => .error e
  | .ok d =>
    let r := readDir Z (file.length + 1) (file.drop d.offset)
    match r.2 with
    | .fail e => .error e
    | s => if r.1.length % 65536 ≠ d.records % 65536 then .error s.err else .ok r.1

/-- `findBodyOffset`. -/
def bodyOffset (file : Bytes) (e : Entry) : Except GoErr Nat :=
  if file.length < e.offset + 30 then .error .eof
  else if field file e.offset 4 ≠ 0x04034b50 then .error errFormat
  else .ok (e.offset + (30 + field file (e.offset + 26) 2 + field file (e.offset + 28) 2))

/-- `readDataDescriptor` in `checksumReader.Read`: the descriptor has the checksum, after an optional signature. -/
def descriptor (b : Bytes) (crc : Nat) : Option GoErr :=
  let d := b.take 16
  if d.length < 4 then some .unexpectedEOF else
  let d := if field d 0 4 = 0x08074b50 then d.drop 4 else d
  if d.length < 12 then some .unexpectedEOF
  else if field d 0 4 ≠ crc then some errChecksum
  else none

/-- `checksumReader.Read` at the end of the data `data` of a member; `after` is what follows the compressed data in the file. -/
def checksum (Z : ZipLib) (e : Entry) (data after : Bytes) : GoErr :=
  if data.length ≠ e.usize then .unexpectedEOF
  else if e.flags.testBit 3 then
    match descriptor after e.crc with
    | some er => er
    | none => if Z.crc data ≠ e.crc then errChecksum else .eof
  else if e.crc ≠ 0 ∧ Z.crc data ≠ e.crc then errChecksum
  else .eof

/-- `File.Open`, and reading to the end: the bytes and the error that ends them. -/
def contents (Z : ZipLib) (file : Bytes) (e : Entry) : Except GoErr (Bytes × GoErr) :=
  match bodyOffset file e with
  | .error er => .error er
  | .ok off =>
    let raw := (file.drop off).take e.csize
    if e.method ≠ 0 ∧ e.method ≠ 8 then .error errAlgorithm else
    let r := if e.method = 0 then (raw, GoErr.eof) else Z.inflate raw
    match r.2 with
    | .eof => .ok (r.1, checksum Z e r.1 (file.drop (off + e.csize)))
    | er => .ok (r.1, er)

/-- The archive that `xlsx.Open` has of a file: `zf.Name` and what `zf.Open` gives for each member
(`/repo/xlsx/xlsx.go:53, 139-147`). -/
def files (Z : ZipLib) (file : Bytes) : Except GoErr Xlsx.Files :=
  (newReader Z file).map (fun es => es.map (fun e => (e.name, contents Z file e)))

end Grate.Zip
