import Verif.Model.Base

/-! # Model of `/repo/xls/crypto/rc4.go`, `/repo/xls/crypto/crypto.go` and of the decryption pass
`/repo/xls/xls.go:83-160`

MD5 and the RC4 key stream (standard library) are parameters; the theorems hold for any functions in their
place. -/

namespace Grate.Crypto

/-- The primitives of the standard library: `md5.Sum`, and byte `i` of the key stream of
`rc4.NewCipher(key)`. -/
structure Prims where
  md5 : Bytes → Bytes
  rc4 : Bytes → Nat → UInt8

/-- `binary.LittleEndian.PutUint16` / `binary.Write` of a `uint16`. -/
def put16 (n : Nat) : Bytes := [UInt8.ofNat (n % 256), UInt8.ofNat (n / 256 % 256)]

/-- `binary.LittleEndian.PutUint32`. -/
def put32 (n : Nat) : Bytes := put16 (n % 65536) ++ put16 (n / 65536 % 65536)

/-- `rc4Writer`, `/repo/xls/crypto/rc4.go:75-93`. `cipherKey`, `dec` and `Password` are only set and used
inside single calls and left out; `buf` is what was decrypted so far and not yet read. -/
structure Rc4 where
  block : Nat
  offset : Nat
  bytes : Bytes
  buf : Bytes
  encKey : Option Bytes
  salt : Bytes

/-- `cipher.XORKeyStream` on a stretch of the key stream starting at byte `i`. -/
def xorKs (ks : Nat → UInt8) : Nat → Bytes → Bytes
  | _, [] => []
  | i, b :: bs => (b ^^^ ks i) :: xorKs ks (i + 1) bs

/-- `generateStd97Key`, `/repo/xls/crypto/rc4.go:131-155`. -/
def generateStd97Key (p : Prims) (pass : List Nat) (salt : Bytes) : GoRes Bytes :=
  if pass.length = 0 ∨ salt.length ≠ 16 then .panic
  else
    let h0 := p.md5 (pass.flatMap (fun c => put16 (c % 65536)))
    .ok (p.md5 ((List.replicate 16 (h0.take 5 ++ salt)).flatten))

/-- `SetPassword`, `/repo/xls/crypto/rc4.go:63-73`. -/
def setPassword (p : Prims) (d : Rc4) (password : Bytes) : GoRes Rc4 := do
  let k ← generateStd97Key p (password.map UInt8.toNat) d.salt
  pure { d with encKey := some k }

/-- `DefaultXLSPassword`, `/repo/xls/crypto/crypto.go:67`. -/
def defaultPassword : Bytes := lit "VelvetSweatshop"

/-- `startBlock`, `/repo/xls/crypto/rc4.go:119-129`: the state (with the key) and the key stream of the
current block. -/
def startBlock (p : Prims) (d : Rc4) : GoRes (Rc4 × (Nat → UInt8)) := do
  let d ← match d.encKey with
    | none => setPassword p d defaultPassword
    | some _ => pure d
  match d.encKey with
  | none => .panic
  | some k =>
    if k.length < 5 then .panic
    else pure (d, p.rc4 (p.md5 (k.take 5 ++ put32 d.block)))

/-- `Reset`, `/repo/xls/crypto/rc4.go:34-38`. -/
def reset (d : Rc4) : Rc4 := { d with block := 0, offset := 0, buf := [] }

/-- `Flush`, `/repo/xls/crypto/rc4.go:41-60`. -/
def flush (p : Prims) (d : Rc4) : GoRes Rc4 := do
  if 1024 < d.offset then .panic
  else
    let endpad := 1024 - d.offset
    let bytes := d.bytes.take d.offset ++ List.replicate endpad 0
    let (d, ks) ← startBlock p d
    let bytes := xorKs ks 0 bytes
    pure { d with bytes := bytes, buf := d.buf ++ bytes.take (1024 - endpad), offset := 0,
                  block := (d.block + 1) % 4294967296 }

/-- `Write`, `/repo/xls/crypto/rc4.go:13-27`; `none` when the fuel runs out (it never does with more fuel
than bytes, see `write_rep`). -/
def write (p : Prims) : Nat → Rc4 → Bytes → Option (GoRes Rc4)
  | 0, _, _ => none
  | fuel + 1, d, data =>
    if data.length = 0 then some (.ok d)
    else if 1024 < d.offset then some .panic
    else
      let n := min (1024 - d.offset) data.length
      let d := { d with bytes := d.bytes.take d.offset ++ data.take n ++ d.bytes.drop (d.offset + n),
                        offset := d.offset + n }
      if 1024 ≤ d.offset then
        match flush p d with
        | .ok d => write p fuel d (data.drop n)
        | .err e => some (.err e)
        | .panic => some .panic
      else write p fuel d (data.drop n)

/-- `Write` with enough fuel. -/
def writeAll (p : Prims) (d : Rc4) (data : Bytes) : GoRes Rc4 :=
  (write p (data.length + 2) d data).getD .panic

/-- `Verify`, `/repo/xls/crypto/rc4.go:99-115`. -/
def verify (p : Prims) (d : Rc4) (verifier hash : Bytes) : GoRes Rc4 := do
  let (d, ks) ← startBlock p (reset d)
  let temp1 := xorKs ks 0 verifier
  let temp2 := xorKs ks verifier.length hash
  if p.md5 temp1 = temp2 then pure d else .err (.msg "verification failed")

/-- `NewBasicRC4`, `/repo/xls/crypto/crypto.go:81-103`: the header is 52 bytes, versions, salt, verifier and
its hash of 16 bytes each. -/
def newBasicRC4 (p : Prims) (data : Bytes) : GoRes Rc4 :=
  if data.length = 0 then .err .eof
  else if data.length < 52 then .err .unexpectedEOF
  else if (data.drop 2).take 2 ≠ [1, 0] then .err (.msg "xls: unknown basic-RC4 minor version")
  else if data.length ≠ 52 then .err (.msg "xls: data length is invalid")
  else
    verify p ⟨0, 0, List.replicate 1024 0, [], none, (data.drop 4).take 16⟩
      ((data.drop 20).take 16) ((data.drop 36).take 16)

/-! ### The decryption pass -/

/-- The record types of `/repo/xls/xls.go:124`, values from `/repo/xls/records.go`. -/
def exempt (t : Nat) : Bool := t ∈ [2057, 47, 404, 405, 225, 406, 312]

/-- `overlay`, `/repo/xls/xls.go:101-107`. -/
structure Overlay where
  pos : Nat
  recType : Nat
  dataBytes : Nat
  data : Bytes

/-- `copy(l[offs:], bs)`. -/
def copyAt (l : Bytes) (offs : Nat) (bs : Bytes) : Bytes :=
  l.take offs ++ bs.take (l.length - offs) ++ l.drop (offs + bs.length)

/-- The record loop, `/repo/xls/xls.go:111-144`. -/
def decryptLoop (p : Prims) (raw : Slice) (pos : Nat) (dec : Rc4) : GoRes (Rc4 × List Overlay) :=
  if raw.len < pos then .panic
  else if raw.len - pos ≤ 4 then .ok (dec, [])
  else do
    let recType ← (← raw.sub pos (pos + 2)).u16
    let dataBytes ← (← raw.sub (pos + 2) (pos + 4)).u16
    let dec ← writeAll p dec (put16 recType)
    let dec ← writeAll p dec (put16 dataBytes)
    if exempt recType then
      let o ← raw.sub (pos + 4) (pos + 4 + dataBytes)
      if 8224 < dataBytes then .panic
      else
        let dec ← writeAll p dec (List.replicate dataBytes 0)
        let (dec, os) ← decryptLoop p raw (pos + 4 + dataBytes) dec
        pure (dec, ⟨pos, recType, dataBytes, o.val⟩ :: os)
    else if recType = 133 then
      let o ← raw.sub (pos + 4) (pos + 8)
      let dec ← writeAll p dec (List.replicate 4 0)
      if 4 < dataBytes then
        let b ← raw.sub (pos + 8) (pos + 8 + (dataBytes - 4))
        let dec ← writeAll p dec b.val
        let (dec, os) ← decryptLoop p raw (pos + 8 + (dataBytes - 4)) dec
        pure (dec, ⟨pos, recType, dataBytes, o.val⟩ :: os)
      else
        let (dec, os) ← decryptLoop p raw (pos + 8) dec
        pure (dec, ⟨pos, recType, dataBytes, o.val⟩ :: os)
    else
      let b ← raw.sub (pos + 4) (pos + 4 + dataBytes)
      let dec ← writeAll p dec b.val
      let (dec, os) ← decryptLoop p raw (pos + 4 + dataBytes) dec
      pure (dec, ⟨pos, recType, dataBytes, []⟩ :: os)
  termination_by raw.len - pos

/-- The overlay loop, `/repo/xls/xls.go:148-156`. -/
def applyOverlays : Bytes → List Overlay → GoRes Bytes
  | all, [] => .ok all
  | all, o :: os =>
    if all.length < o.pos + 4 then .panic
    else
      let all := copyAt all o.pos (put16 o.recType)
      let all := copyAt all (o.pos + 2) (put16 o.dataBytes)
      let all := if 0 < o.data.length then copyAt all (o.pos + 4) o.data else all
      applyOverlays all os

/-- The decrypted stream handed to `loadFromStream2`, `/repo/xls/xls.go:83-160`. -/
def decryptStream (p : Prims) (raw : Slice) (dec : Rc4) : GoRes Bytes := do
  let (dec, os) ← decryptLoop p raw 0 dec
  let dec ← flush p dec
  applyOverlays dec.buf os

end Grate.Crypto
