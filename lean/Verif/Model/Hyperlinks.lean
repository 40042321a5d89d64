import Verif.Model.XlsStrings

/-! # Model of `/repo/xls/hyperlinks.go` -/

namespace Grate.Xls

/-- The loops reading `n` 16-bit values from the visible bytes, for example `/repo/xls/hyperlinks.go:24-27`. -/
def read16u : Nat → Slice → GoRes (List Nat × Slice)
  | 0, raw => .ok ([], raw)
  | n + 1, raw => do
    let u ← raw.u16
    let raw ← raw.dropFrom 2
    let (us, raw) ← read16u n raw
    pure (u :: us, raw)

/-- A string with a 32-bit count, `/repo/xls/hyperlinks.go:21-28`, `41-48` and `61-68`. -/
def hyperString (raw : Slice) : GoRes (Bytes × Slice) := do
  let n ← (← raw.sub 0 4).u32
  let raw ← raw.dropFrom 4
  let (us, raw) ← read16u n raw
  pure (u16str us, raw)

/-- `urlMonikerClassID`, `/repo/xls/hyperlinks.go:82`. -/
def urlClass : Bytes := [0xE0, 0xC9, 0xEA, 0x79, 0xF9, 0xBA, 0xCE, 0x11, 0x8C, 0x82, 0x00, 0xAA, 0x00, 0x4B, 0xA9, 0x0B]

/-- `fileMonikerClassID`, `/repo/xls/hyperlinks.go:83`. -/
def fileClass : Bytes := [0x03, 0x03, 0x00, 0x00, 0x00, 0x00, 0x00, 0x00, 0xC0, 0x00, 0x00, 0x00, 0x00, 0x00, 0x00, 0x46]

/-- A URL moniker after its class, `/repo/xls/hyperlinks.go:93-104`: the text and the rest. -/
def urlMoniker (raw : Slice) : GoRes (Bytes × Slice) := do
  let length ← raw.u32
  let raw ← raw.dropFrom 4
  let (buf, raw) ← read16u (length / 2) raw
  let buf := if 12 < length / 2 ∧ buf[length / 2 - 13]? = some 0 then buf.take (length / 2 - 12) else buf
  pure (u16str buf, raw)

/-- A file moniker after its class, `/repo/xls/hyperlinks.go:107-128`. The 32-bit difference `length - 6` wraps. -/
def fileMoniker (raw : Slice) : GoRes (Bytes × Slice) := do
  let length ← (← raw.dropFrom 2).u32
  let buf ← raw.sub 6 (6 + length)
  let raw ← raw.dropFrom (6 + length + 24)
  let length ← raw.u32
  let raw ← raw.dropFrom 4
  if 0 < length then
    let raw ← raw.dropFrom 6
    let (us, raw) ← read16u ((length + 4294967296 - 6) % 4294967296 / 2) raw
    pure (u16str us, raw)
  else pure (buf.val, raw)

/-- `parseHyperlinkMoniker`, `/repo/xls/hyperlinks.go:77-132`, with the rest `raw[n:]` instead of `n`. (The code
slices `raw[no:]` at each step; the model drops what was read.) -/
def parseMoniker (raw : Slice) : GoRes (Bytes × Slice) := do
  let cls ← raw.sub 0 16
  if cls.val = urlClass then urlMoniker (← raw.dropFrom 16)
  else if cls.val = fileClass then fileMoniker (← raw.dropFrom 16)
  else .err (.msg "xls: unknown moniker classid")

/-- The cutset of `/repo/xls/hyperlinks.go:71-72`. -/
def trimSet : Bytes := [32, 11, 12, 9, 13, 10, 0]

/-- `strings.Trim` with an ASCII cutset (standard library). -/
def trim (s : Bytes) : Bytes :=
  ((s.dropWhile (· ∈ trimSet)).reverse.dropWhile (· ∈ trimSet)).reverse

/-- The display name, `/repo/xls/hyperlinks.go:20-29`. -/
def displayPart (flags : Nat) (raw : Slice) : GoRes (Bytes × Slice) :=
  if flags.testBit 4 then hyperString raw else .ok ([], raw)

/-- The frame name, `/repo/xls/hyperlinks.go:31-35`. The position is computed with 32 bits. -/
def framePart (flags : Nat) (raw : Slice) : GoRes Slice :=
  if flags.testBit 7 then do
    let n ← (← raw.sub 0 4).u32
    raw.dropFrom ((4 + n * 2) % 4294967296)
  else .ok raw

/-- The moniker, `/repo/xls/hyperlinks.go:37-58`. -/
def monikerPart (flags : Nat) (raw : Slice) : GoRes (Bytes × Slice) :=
  if flags.testBit 0 then
    if flags.testBit 8 then hyperString raw else parseMoniker raw
  else .ok ([], raw)

/-- The location, `/repo/xls/hyperlinks.go:60-69`; it replaces the link found so far. -/
def locationPart (flags : Nat) (link : Bytes) (raw : Slice) : GoRes Bytes :=
  if flags.testBit 3 then do
    let (s, _) ← hyperString raw
    pure s
  else .ok link

/-- `decodeHyperlinks`, `/repo/xls/hyperlinks.go:11-75`: display text and link. -/
def decodeHyperlinks (raw : Slice) : GoRes (Bytes × Bytes) := do
  let raw ← raw.dropFrom 16
  let slen ← (← raw.sub 0 4).u32
  if slen ≠ 2 then .err (.msg "xls: unknown hyperlink version")
  else
    let flags ← (← raw.sub 4 8).u32
    let raw ← raw.dropFrom 8
    let (display, raw) ← displayPart flags raw
    let raw ← framePart flags raw
    let (link, raw) ← monikerPart flags raw
    let link ← locationPart flags link raw
    pure (trim display, trim link)

end Grate.Xls
