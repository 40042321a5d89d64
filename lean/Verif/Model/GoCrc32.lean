import Verif.Model.Base

/-! # Model of `hash/crc32` of Go 1.16, with the IEEE polynomial

The checksum that `archive/zip` computes over the data of a member (`crc32.NewIEEE()`, used where grate reads the parts of an xlsx file,
`/repo/xlsx/xlsx.go:44-66`, `135-150`). Modelled after the plain version of the library (`crc32_generic.go`, `simpleMakeTable`,
`simpleUpdate`); the library has faster versions for tables of eight bytes and for the instructions of some processors, which are
trusted to compute the same. Numbers stand for `uint32`. -/

namespace Grate.Zip

/-- `crc32.IEEE`, bits reversed. -/
def crcPoly : Nat := 0xedb88320

/-- The body of the inner loop of `simplePopulateTable`: `if crc&1 == 1 { crc = (crc >> 1) ^ poly } else { crc >>= 1 }`. -/
def crcBit (c : Nat) : Nat := if c % 2 = 1 then (c / 2) ^^^ crcPoly else c / 2

/-- `n` times the body of the inner loop. -/
def crcBits : Nat → Nat → Nat
  | 0, c => c
  | n + 1, c => crcBits n (crcBit c)

/-- The entry `i` of the table, `simplePopulateTable`. -/
def crcTable (i : Nat) : Nat := crcBits 8 i

/-- The body of the loop of `simpleUpdate`: `crc = tab[byte(crc)^v] ^ (crc >> 8)`. -/
def crcByte (c : Nat) (v : UInt8) : Nat := crcTable ((c % 256) ^^^ v.toNat) ^^^ (c / 256)

/-- `simpleUpdate` from the checksum of nothing: `crc = ^crc`, the loop, `return ^crc`. -/
def goCrc32 (bs : Bytes) : Nat := bs.foldl crcByte 0xffffffff ^^^ 0xffffffff

end Grate.Zip
