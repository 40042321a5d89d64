import Verif.Spec.Zip

/-! # Specification of damage to the bytes of an archive (C142) -/

namespace Grate.Spec

open Grate

/-- The file with the bytes `b` in place of those from `i` on. -/
def overwritten (file : Bytes) (i : Nat) (b : Bytes) : Bytes := file.take i ++ (b ++ file.drop (i + b.length))

/-- Room of a data descriptor after the data. -/
def descrRoom (m : Member) : Nat := if m.flags.testBit 3 = true then 16 else 0

/-- The bytes from `i` on, which are in the data of the member `m` (stored without compression, the first member of its name)
before the directory, and in no other member, have been replaced by `b`. -/
structure Hit (inflate : Bytes → Bytes × GoErr) (crc : Bytes → Nat) (file : Bytes) (before : List Member) (m : Member)
    (after : List Member) (i : Nat) (b : Bytes) : Prop where
  archive : ZipFile inflate (ofData crc) file (before ++ m :: after)
  first : ∀ x ∈ before, x.name ≠ m.name
  stored : m.method = 0
  inside : ∃ start, LocalData (crc m.data) file m start ∧ start ≤ i ∧ i + b.length ≤ start + m.data.length
  front : ∃ front, Layout (ofData crc) file (before ++ m :: after) front ∧ i + b.length ≤ front.length
  others : ∀ x, x ∈ before ∨ x ∈ after → ∃ start, LocalData (crc x.data) file x start ∧
    (i + b.length ≤ x.offset ∨ start + x.packed.length + descrRoom x ≤ i)
  changed : overwritten file i b ≠ file

end Grate.Spec
