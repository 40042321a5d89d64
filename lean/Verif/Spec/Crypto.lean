import Verif.Spec.Cfb

/-! # Specification: RC4 encryption of workbook streams, after MS-OFFCRYPTO 2.3.6 and MS-XLS 2.2.10 -/

namespace Grate.Spec

/-- The password as UTF-16 (characters below 256, as the default password). -/
def passwordBytes (password : Bytes) : Bytes := password.flatMap (fun c => [c, 0])

/-- The encryption key: hash of the password, its first five bytes and the salt sixteen times, hashed. -/
def encryptionKey (md5 : Bytes → Bytes) (password salt : Bytes) : Bytes :=
  let h := (md5 (passwordBytes password)).take 5
  md5 ((List.replicate 16 (h ++ salt)).flatten)

/-- The key of block `n`: the hash of five bytes of the encryption key and the block number. -/
def blockKey (md5 : Bytes → Bytes) (password salt : Bytes) (n : Nat) : Bytes :=
  md5 ((encryptionKey md5 password salt).take 5 ++ leBytes 4 n)

/-- Byte `k` of the key stream: byte `k % 1024` of the RC4 stream of block `k / 1024` (the block number has
32 bits). -/
def keyStream (md5 : Bytes → Bytes) (rc4 : Bytes → Nat → UInt8) (password salt : Bytes) (k : Nat) : UInt8 :=
  rc4 (blockKey md5 password salt (k / 1024 % 2 ^ 32)) (k % 1024)

/-- Byte-wise XOR with a key stream. -/
def xorStream (f : Nat → UInt8) (b : Bytes) : Bytes := b.mapIdx (fun k x => x ^^^ f k)

/-- A record of the workbook stream. -/
structure Record where
  type : Nat
  data : Bytes

/-- The bytes of a record: type, size, data. -/
def Record.bytes (r : Record) : Bytes := leBytes 2 r.type ++ leBytes 2 r.data.length ++ r.data

/-- Records that fit the format (BoundSheet8 records start with a position of four bytes). -/
def Record.Ok (r : Record) : Prop :=
  r.type < 65536 ∧ r.data.length ≤ 8224 ∧ (r.type = 0x85 → 4 ≤ r.data.length)

/-- The stream of the records. -/
def stream (rs : List Record) : Bytes := rs.flatMap Record.bytes

/-- The types that are never encrypted: BOF, FilePass, UsrExcl, FileLock, InterfaceHdr, RRDInfo, RRDHead. -/
def Record.exempt (r : Record) : Bool :=
  r.type = 0x809 || r.type = 0x2F || r.type = 0x194 || r.type = 0x195 || r.type = 0xE1 || r.type = 0x196 ||
    r.type = 0x138

/-- Which bytes of a record stay in clear: the header, the data of exempt records, and the first four data
bytes (the stream position) of BoundSheet8 records. -/
def Record.clear (r : Record) : List Bool :=
  List.replicate 4 true ++
    (if r.exempt then List.replicate r.data.length true
     else if r.type = 0x85 then (List.replicate r.data.length true).mapIdx (fun i _ => decide (i < 4))
     else List.replicate r.data.length false)

/-- The encrypted stream of the records under the key stream `f`. -/
def encrypted (f : Nat → UInt8) (rs : List Record) : Bytes :=
  ((stream rs).zip (rs.flatMap Record.clear)).mapIdx (fun k (x, c) => if c then x else x ^^^ f k)

end Grate.Spec
