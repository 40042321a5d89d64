import Verif.Model.Unicode

/-! # Model of `/repo/xls/strings.go`

`decodeXLUnicodeRichExtendedString` (lines 63-134) is never called and not modelled. The capacity of the result
slice and the scratch buffer of `parseSST` are memory matters and not modelled. -/

namespace Grate.Xls

/-- `string(utf16.Decode(us))`. -/
def u16str (us : List Nat) : Bytes := utf8Encode (utf16Decode us)

/-- The loops reading `n` 16-bit values, `/repo/xls/strings.go:28-31` and `54-57`: the values and the rest. -/
def read16s : Nat → Slice → GoRes (List Nat × Slice)
  | 0, raw => .ok ([], raw)
  | n + 1, raw => do
    let u ← (← raw.sub 0 2).u16
    let raw ← raw.dropFrom 2
    let (us, raw) ← read16s n raw
    pure (u :: us, raw)

/-- The common part of the two decoders from the flags on, `/repo/xls/strings.go:18-34` and `44-60`; `head` is
the size of the header. -/
def decodeChars (cch : Nat) (flags : UInt8) (head : Nat) (raw : Slice) : GoRes (Bytes × Nat) :=
  if flags &&& 1 = 0 then do
    let contentBytes ← raw.sub 0 cch
    pure (u16str (contentBytes.val.map UInt8.toNat), cch + head)
  else do
    let (us, _) ← read16s cch raw
    pure (u16str us, cch + cch + head)

/-- `decodeShortXLUnicodeString`, `/repo/xls/strings.go:12-35`. -/
def decodeShort (raw : Slice) : GoRes (Bytes × Nat) := do
  let cch ← raw.idx 0
  let flags ← raw.idx 1
  let raw ← raw.dropFrom 2
  decodeChars cch.toNat flags 2 raw

/-- `decodeXLUnicodeString`, `/repo/xls/strings.go:38-61`. -/
def decodeLong (raw : Slice) : GoRes (Bytes × Nat) := do
  let cch ← (← raw.sub 0 2).u16
  let flags ← raw.idx 2
  let raw ← raw.dropFrom 3
  decodeChars cch flags 3 raw

/-! ### The shared string table -/

/-- Moving on to the next record inside a character array, `/repo/xls/strings.go:190-198`: the flags, the
buffer and the records after it. -/
def nextChars (flags : UInt8) (later : List Slice) : GoRes (UInt8 × Slice × List Slice) :=
  match later with
  | [] => .panic
  | r :: later => do
    let b ← r.idx 0
    let flags := if b &&& 1 = 0 then flags &&& 0xFE else flags ||| 1
    let buf ← r.dropFrom 1
    pure (flags, buf, later)

/-- One character, `/repo/xls/strings.go:200-209`. -/
def readChar (flags : UInt8) (buf : Slice) : GoRes (Nat × Slice) :=
  if flags &&& 1 = 0 then do
    let c ← buf.idx 0
    let buf ← buf.dropFrom 1
    pure (c.toNat, buf)
  else do
    let c ← (← buf.sub 0 2).u16
    let buf ← buf.dropFrom 2
    if buf.len = 1 then .err (.msg "xls: off by one") else pure (c, buf)

/-- The character loop, `/repo/xls/strings.go:189-210`. -/
def readChars : Nat → UInt8 → Slice → List Slice → GoRes (List Nat × Slice × List Slice)
  | 0, _, buf, later => .ok ([], buf, later)
  | n + 1, flags, buf, later => do
    let (flags, buf, later) ← if buf.len = 0 then nextChars flags later else pure (flags, buf, later)
    let (c, buf) ← readChar flags buf
    let (cs, buf, later) ← readChars n flags buf later
    pure (c :: cs, buf, later)

/-- The loops skipping formatting and phonetic data, `/repo/xls/strings.go:217-226` and `228-237`. -/
def skipData (n : Nat) (buf : Slice) (later : List Slice) : GoRes (Slice × List Slice) :=
  if n = 0 then .ok (buf, later)
  else if n ≤ buf.len then do
    let buf ← buf.dropFrom n
    pure (buf, later)
  else
    match later with
    | [] => .panic
    | r :: later => skipData (n - buf.len) r later

/-- The number of bytes of formatting runs, `/repo/xls/strings.go:160-165`. -/
def runBytes (flags : UInt8) (buf : Slice) : GoRes (Nat × Slice) :=
  if flags &&& 8 ≠ 0 then do
    let cRun ← buf.u16
    let buf ← buf.dropFrom 2
    pure (cRun * 4, buf)
  else pure (0, buf)

/-- The number of bytes of phonetic data, `/repo/xls/strings.go:166-170`. -/
def extBytes (flags : UInt8) (buf : Slice) : GoRes (Nat × Slice) :=
  if flags &&& 4 ≠ 0 then do
    let n ← buf.u32
    let buf ← buf.dropFrom 4
    pure (n, buf)
  else pure (0, buf)

/-- One string, `/repo/xls/strings.go:155-237`. -/
def readString (buf : Slice) (later : List Slice) : GoRes (Bytes × Slice × List Slice) := do
  let slen ← buf.u16
  let buf ← buf.dropFrom 2
  let flags ← buf.idx 0
  let buf ← buf.dropFrom 1
  let (cRunBytes, buf) ← runBytes flags buf
  let (cbExtRs, buf) ← extBytes flags buf
  let (us, buf, later) ← readChars slen flags buf later
  let (buf, later) ← skipData cRunBytes buf later
  let (buf, later) ← skipData cbExtRs buf later
  pure (u16str us, buf, later)

/-- The loops over records and strings, `/repo/xls/strings.go:149-243`; `none` when the fuel runs out (see
`sstLoop_fuel`). -/
def sstLoop : Nat → Slice → List Slice → Option (GoRes (List Bytes))
  | 0, _, _ => none
  | fuel + 1, buf, later =>
    if 0 < buf.len then
      match readString buf later with
      | .ok (s, buf, later) =>
        match sstLoop fuel buf later with
        | some (.ok ss) => some (.ok (s :: ss))
        | x => x
      | .err e => some (.err e)
      | .panic => some .panic
    else
      match later with
      | [] => some (.ok [])
      | r :: later => sstLoop fuel r later

/-- Bytes and records left, more than the number of rounds of the loops. -/
def sstFuel (buf : Slice) (later : List Slice) : Nat :=
  buf.len + (later.map (fun r => r.len + 1)).sum + 1

/-- `parseSST`, `/repo/xls/strings.go:137-246`, on the data of the records. -/
def parseSST (recs : List Slice) : GoRes (List Bytes) :=
  match recs with
  | [] => .panic
  | r :: later => do
    let _ ← (← r.sub 4 8).u32
    let buf ← r.dropFrom 8
    (sstLoop (sstFuel buf later) buf later).getD .panic

end Grate.Xls
