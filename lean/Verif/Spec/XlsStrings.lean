import Verif.Spec.Cfb
import Verif.Spec.Utf16

/-! # Specification: strings in workbook streams, after MS-XLS 2.5.240, 2.5.293 and 2.5.294 -/

namespace Grate.Spec

/-- The units of a character array fit its width. -/
def Fits (wide : Bool) (us : List Nat) : Prop := ∀ u ∈ us, u < (if wide then 65536 else 256)

/-- The bytes of a character array: one byte each if narrow, two if wide. -/
def charBytes (wide : Bool) (us : List Nat) : Bytes := us.flatMap (leBytes (if wide then 2 else 1))

/-- A string with a character count of `k` bytes (1 in ShortXLUnicodeString, 2 in XLUnicodeString); `flags` has
bit 0 set exactly if the characters are wide. -/
def xlString (k : Nat) (wide : Bool) (flags : UInt8) (us : List Nat) : Bytes :=
  leBytes k us.length ++ flags :: charBytes wide us

/-- Bit `i` of a flags byte. -/
def bit (flags : UInt8) (i : Nat) : Bool := flags.toNat / 2 ^ i % 2 = 1

/-! ### The shared string table

A table is written as a sequence of bytes and record breaks (`none`). -/

/-- The records of a sequence: the rest of the current one and those after it. -/
def recordsOf : List (Option UInt8) → Bytes × List Bytes
  | [] => ([], [])
  | some b :: s => (b :: (recordsOf s).1, (recordsOf s).2)
  | none :: s => ([], (recordsOf s).1 :: (recordsOf s).2)

/-- A string as it is laid out in the table. -/
structure SstString where
  /-- it starts in a new record -/
  newRecord : Bool
  /-- the flags byte of the string -/
  flags : UInt8
  /-- the characters in the first record -/
  first : List Nat
  /-- the characters in each following record, with the flags byte at its start -/
  others : List (UInt8 × List Nat)
  /-- formatting runs, by record -/
  runs : List Bytes
  /-- phonetic data, by record -/
  phonetic : List Bytes

/-- All units of the string. -/
def SstString.units (s : SstString) : List Nat := s.first ++ (s.others.map Prod.snd).flatten

/-- Pieces of data in consecutive records. -/
def pieces : List Bytes → List (Option UInt8)
  | [] => []
  | [p] => p.map some
  | p :: ps => p.map some ++ none :: pieces ps

/-- The string in the table. -/
def SstString.layout (s : SstString) : List (Option UInt8) :=
  (if s.newRecord then [none] else []) ++
  (leBytes 2 s.units.length ++ s.flags ::
    ((if bit s.flags 3 then leBytes 2 (s.runs.flatten.length / 4) else []) ++
     (if bit s.flags 2 then leBytes 4 s.phonetic.flatten.length else []) ++
     charBytes (bit s.flags 0) s.first)).map some ++
  s.others.flatMap (fun c => none :: some c.1 :: (charBytes (bit c.1 0) c.2).map some) ++
  pieces s.runs ++ pieces s.phonetic

/-- A legal layout: sizes fit their fields, characters their width; a continuation has characters; data only if
announced. -/
structure SstString.Ok (s : SstString) : Prop where
  count : s.units.length < 65536
  first : Fits (bit s.flags 0) s.first
  others : ∀ c ∈ s.others, c.2 ≠ [] ∧ Fits (bit c.1 0) c.2
  runs : if bit s.flags 3 then s.runs.flatten.length % 4 = 0 ∧ s.runs.flatten.length / 4 < 65536 else s.runs = []
  phonetic : if bit s.flags 2 then s.phonetic.flatten.length < 2 ^ 32 else s.phonetic = []

/-- Are the last characters of the string wide? -/
def lastWide (s : SstString) : Bool := bit ((s.others.map Prod.fst).getLastD s.flags) 0

/-- The layout avoids the exception (see `C46_counterexample`): of the data after wide characters exactly one byte is in their
record. -/
def NoLoneByte (s : SstString) : Prop :=
  lastWide s = true → (recordsOf (pieces s.runs ++ pieces s.phonetic)).1.length ≠ 1

/-- The records of a table: eight bytes of counts (`counts`), then the strings. -/
def sstRecords (counts : Bytes) (ss : List SstString) : List Bytes :=
  let r := recordsOf (counts.map some ++ ss.flatMap SstString.layout)
  r.1 :: r.2

end Grate.Spec
