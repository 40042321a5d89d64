import Verif.Spec.Cfb
import Verif.Model.Unicode

/-! # Specification: compound files that need not make sense, but whose pieces are there

Conditions on the bytes of a file under which reading it as a compound document cannot crash. They say nothing about
what most fields hold. -/

namespace Grate.Spec

open Grate

/-- The number that little-endian bytes stand for. -/
def number : Bytes → Nat
  | [] => 0
  | a :: as => a.toNat + 256 * number as

/-- The number in `n` bytes at position `i`. -/
def numAt (file : Bytes) (i n : Nat) : Nat := number ((file.drop i).take n)

/-- The sector size is two to this power. -/
def sectorBits (file : Bytes) : Nat := numAt file 30 2

/-- `ids` are the numbers listed in the chain of DIFAT sectors that starts at `s`: all words of a sector but the last
name FAT sectors (or nothing), the last word is the next DIFAT sector. -/
inductive Listed (file : Bytes) (bits : Nat) : (s : Nat) → (ids : List Nat) → Prop where
  | done : Listed file bits 0xFFFFFFFE []
  | cons (s : Nat) (ids : List Nat) : Regular s → HasSector file bits s →
      Listed file bits ((words (sector file bits s))[2 ^ (bits - 2) - 1]?.getD 0) ids →
      Listed file bits s (((words (sector file bits s)).take (2 ^ (bits - 2) - 1)).filter
        (fun i => i ≠ 0xFFFFFFFF ∧ i ≠ 0xFFFFFFFE) ++ ids)

/-- The header asks for a chain of DIFAT sectors (the count is a signed number). -/
def HasDifat (file : Bytes) : Prop := 0 < numAt file 72 4 ∧ numAt file 72 4 < 2 ^ 31

/-- A file of whole sectors, with a mini FAT of (by its count) at most as many sectors as a sector has words, and with
a chain of DIFAT sectors that stays inside the file and ends. The numbers of FAT and mini FAT sectors may be -1, but
no other negative number. -/
structure Whole (file : Bytes) : Prop where
  sectors : 2 ^ sectorBits file ∣ file.length
  numFAT : numAt file 44 4 < 2 ^ 31 - 1 ∨ numAt file 44 4 = 2 ^ 32 - 1
  numMini : numAt file 64 4 ≤ 2 ^ (sectorBits file - 2) ∨ numAt file 64 4 = 2 ^ 32 - 1
  difat : HasDifat file → ∃ ids, Listed file (sectorBits file) (numAt file 68 4) ids

/-- The FAT sectors that the header names. -/
def headSectors (file : Bytes) : List Nat :=
  ((List.range 109).map (fun i => numAt file (76 + 4 * i) 4)).takeWhile (· ≠ 0xFFFFFFFF)

/-- The allocation table of a file, sector numbers being whatever they are. -/
def IsFat (file : Bytes) (fat : List Nat) : Prop :=
  ∃ ids, (HasDifat file ∧ Listed file (sectorBits file) (numAt file 68 4) ids ∨ ¬ HasDifat file ∧ ids = []) ∧
    fat = table file (sectorBits file) (headSectors file ++ ids)

/-- A sector number that can be followed: one of the two marks, a sector that is there and that the table describes,
or one that is clearly outside. (The number of the sector that would begin right at the end of the file is none of
these.) -/
def Followable (file : Bytes) (bits : Nat) (fat : List Nat) (t : Nat) : Prop :=
  t = 0xFFFFFFFE ∨ t = 0xFFFFFFFF ∨ (t < 0xFFFFFFFE ∧ t < fat.length ∧ HasSector file bits t) ∨
    (t < 0xFFFFFFFE ∧ file.length < (t + 1) * 2 ^ bits)

/-- Directory entry `k`, counted from the first directory sector on; zeros if the file ends before. -/
def entryAt (file : Bytes) (k : Nat) : Bytes :=
  let off := (1 + numAt file 48 4) % 2 ^ 32 * 2 ^ sectorBits file + 128 * k
  if file.length < off + 128 then List.replicate 128 0 else (file.drop off).take 128

/-- The length field of a name: odd or too large (such names are replaced), or at least the terminator. -/
def NameLen (n : Nat) : Prop := n % 2 = 1 ∨ 2 ≤ n ∧ n < 2 ^ 15

/-- The name of an entry is `name`. -/
def NamedAs (e name : Bytes) : Prop :=
  (numAt e 64 2 % 2 = 1 ∨ 64 < numAt e 64 2) ∧ name = lit "<invalid utf16 string>" ∨
  numAt e 64 2 % 2 = 0 ∧ numAt e 64 2 ≤ 64 ∧
    name = utf8Encode (utf16Decode (((List.range 32).map (fun i => numAt e (2 * i) 2)).take (numAt e 64 2 / 2))).dropLast

/-- The size of a stream: version 3 has 32 bits for it. -/
def entrySize (file e : Bytes) : Nat := if numAt file 26 2 = 3 then numAt e 120 8 % 2 ^ 32 else numAt e 120 8

/-- The directory entries that are looked at (the first four, unless unused) have names of a possible length, and the
streams called `name` among them are large (but not impossibly so) and begin at a sector number that can be followed. -/
structure Streams (file : Bytes) (fat : List Nat) (name : Bytes) : Prop where
  names : ∀ k < 4, numAt (entryAt file k) 66 1 ≠ 0 → NameLen (numAt (entryAt file k) 64 2)
  table : ∀ t ∈ fat, Followable file (sectorBits file) fat t
  streams : ∀ k < 4, numAt (entryAt file k) 66 1 = 2 → NamedAs (entryAt file k) name →
    4096 ≤ entrySize file (entryAt file k) ∧ entrySize file (entryAt file k) < 2 ^ 50 ∧
    Followable file (sectorBits file) fat (numAt (entryAt file k) 116 4)

/-- `raw` is what a stream of that start and size holds: the bytes of the sectors of its chain. -/
def ChainBytes (file : Bytes) (bits : Nat) (fat : List Nat) (start size : Nat) (raw : Bytes) : Prop :=
  ∃ ids, Run fat start ids ∧ (∀ i ∈ ids, HasSector file bits i) ∧ size ≤ ids.length * 2 ^ bits ∧
    raw = ((ids.map (sector file bits)).flatten).take size

end Grate.Spec
