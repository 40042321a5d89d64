import Verif.Model.Crypto

/-! # Model of `crypto/md5` and `crypto/rc4` of the Go library

The functions `/repo/xls/crypto/rc4.go` calls (`md5.Sum`, `/repo/xls/crypto/rc4.go:108,126,147,153`, and
`rc4.NewCipher` with `XORKeyStream`, `/repo/xls/crypto/rc4.go:49,103-105,127`), after RFC 1321 and the
published description of RC4. Words are natural numbers below `2 ^ 32`. -/

namespace Grate.GoCrypto

/-! ### MD5 -/

/-- A word rotated to the left. -/
def rotl (x n : Nat) : Nat := ((x <<< n) ||| (x >>> (32 - n))) % 2 ^ 32

/-- The complement of a word. -/
def notW (x : Nat) : Nat := 2 ^ 32 - 1 - x

/-- The integer parts of `2 ^ 32 * |sin i|`. -/
def sines : List Nat :=
  [0xd76aa478, 0xe8c7b756, 0x242070db, 0xc1bdceee, 0xf57c0faf, 0x4787c62a,
   0xa8304613, 0xfd469501, 0x698098d8, 0x8b44f7af, 0xffff5bb1, 0x895cd7be,
   0x6b901122, 0xfd987193, 0xa679438e, 0x49b40821, 0xf61e2562, 0xc040b340,
   0x265e5a51, 0xe9b6c7aa, 0xd62f105d, 0x02441453, 0xd8a1e681, 0xe7d3fbc8,
   0x21e1cde6, 0xc33707d6, 0xf4d50d87, 0x455a14ed, 0xa9e3e905, 0xfcefa3f8,
   0x676f02d9, 0x8d2a4c8a, 0xfffa3942, 0x8771f681, 0x6d9d6122, 0xfde5380c,
   0xa4beea44, 0x4bdecfa9, 0xf6bb4b60, 0xbebfbc70, 0x289b7ec6, 0xeaa127fa,
   0xd4ef3085, 0x04881d05, 0xd9d4d039, 0xe6db99e5, 0x1fa27cf8, 0xc4ac5665,
   0xf4292244, 0x432aff97, 0xab9423a7, 0xfc93a039, 0x655b59c3, 0x8f0ccc92,
   0xffeff47d, 0x85845dd1, 0x6fa87e4f, 0xfe2ce6e0, 0xa3014314, 0x4e0811a1,
   0xf7537e82, 0xbd3af235, 0x2ad7d2bb, 0xeb86d391]

/-- The rotation of step `i`. -/
def shiftOf (i : Nat) : Nat :=
  match i / 16 with
  | 0 => [7, 12, 17, 22].getD (i % 4) 0
  | 1 => [5, 9, 14, 20].getD (i % 4) 0
  | 2 => [4, 11, 16, 23].getD (i % 4) 0
  | _ => [6, 10, 15, 21].getD (i % 4) 0

/-- The function of step `i`. -/
def mix (i b c d : Nat) : Nat :=
  match i / 16 with
  | 0 => (b &&& c) ||| (notW b &&& d)
  | 1 => (b &&& d) ||| (c &&& notW d)
  | 2 => b ^^^ c ^^^ d
  | _ => c ^^^ (b ||| notW d)

/-- The word of the block that step `i` takes. -/
def wordOf (i : Nat) : Nat :=
  match i / 16 with
  | 0 => i
  | 1 => (5 * i + 1) % 16
  | 2 => (3 * i + 5) % 16
  | _ => 7 * i % 16

/-- The state of the digest. -/
structure Md5 where
  a : Nat
  b : Nat
  c : Nat
  d : Nat

/-- One step on a block of sixteen words. -/
def step (m : List Nat) (s : Md5) (i : Nat) : Md5 :=
  let f := (mix i s.b s.c s.d + s.a + sines.getD i 0 + m.getD (wordOf i) 0) % 2 ^ 32
  ⟨s.d, (s.b + rotl f (shiftOf i)) % 2 ^ 32, s.b, s.c⟩

/-- The words of a block. -/
def words : Bytes → List Nat
  | a :: b :: c :: d :: rest =>
    (a.toNat + 256 * (b.toNat + 256 * (c.toNat + 256 * d.toNat))) :: words rest
  | _ => []

/-- A block. -/
def block (s : Md5) (b : Bytes) : Md5 :=
  let t := (List.range 64).foldl (step (words b)) s
  ⟨(s.a + t.a) % 2 ^ 32, (s.b + t.b) % 2 ^ 32, (s.c + t.c) % 2 ^ 32, (s.d + t.d) % 2 ^ 32⟩

/-- The message, padded to a multiple of 64 bytes: 0x80, zeros, and the number of bits in eight bytes. -/
def padded (b : Bytes) : Bytes :=
  b ++ 0x80 :: List.replicate ((119 - b.length % 64) % 64) 0 ++
    Crypto.put32 (8 * b.length % 2 ^ 32) ++ Crypto.put32 (8 * b.length / 2 ^ 32 % 2 ^ 32)

/-- All blocks. -/
def blocks (s : Md5) : Nat → Bytes → Md5
  | 0, _ => s
  | n + 1, b => blocks (block s (b.take 64)) n (b.drop 64)

/-- `md5.Sum`. -/
def md5 (b : Bytes) : Bytes :=
  let s := blocks ⟨0x67452301, 0xefcdab89, 0x98badcfe, 0x10325476⟩ ((padded b).length / 64) (padded b)
  Crypto.put32 s.a ++ Crypto.put32 s.b ++ Crypto.put32 s.c ++ Crypto.put32 s.d

/-! ### RC4 -/

/-- Two entries exchanged. -/
def swap (s : List Nat) (i j : Nat) : List Nat :=
  (s.set i (s.getD j 0)).set j (s.getD i 0)

/-- The key schedule of `rc4.NewCipher`: the permutation and `j`, after step `i`. -/
def schedule (key : Bytes) : List Nat :=
  ((List.range 256).foldl (fun (p : List Nat × Nat) i =>
    let j := (p.2 + p.1.getD i 0 + (key.getD (i % key.length) 0).toNat) % 256
    (swap p.1 i j, j)) (List.range 256, 0)).1

/-- The state of a cipher. -/
structure Rc4 where
  s : List Nat
  i : Nat
  j : Nat

/-- One byte of the key stream, `XORKeyStream`. -/
def next (c : Rc4) : UInt8 × Rc4 :=
  let i := (c.i + 1) % 256
  let j := (c.j + c.s.getD i 0) % 256
  let s := swap c.s i j
  (UInt8.ofNat (s.getD ((s.getD i 0 + s.getD j 0) % 256) 0), ⟨s, i, j⟩)

/-- The first `n` bytes of the key stream. -/
def bytes : Nat → Rc4 → Bytes
  | 0, _ => []
  | n + 1, c => let (b, c) := next c; b :: bytes n c

/-- The state after `n` bytes. -/
def skip : Nat → Rc4 → Rc4
  | 0, c => c
  | n + 1, c => skip n (next c).2

/-- Byte `n` of the key stream of `rc4.NewCipher(key)`. -/
def rc4 (key : Bytes) (n : Nat) : UInt8 := (next (skip n ⟨schedule key, 0, 0⟩)).1

/-- The primitives of the Go library. -/
def prims : Crypto.Prims := ⟨md5, rc4⟩

end Grate.GoCrypto
