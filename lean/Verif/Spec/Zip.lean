import Verif.Spec.Cfb

/-! # Specification of zip archives (C140), after the ZIP file format specification (APPNOTE 4.3) -/

namespace Grate.Spec

open Grate

/-- A member of an archive: its name, its data, how they are compressed and the compressed bytes, its flags, and the offset of its
local header. -/
structure Member where
  name : Bytes
  data : Bytes
  packed : Bytes
  method : Nat
  flags : Nat
  offset : Nat

/-- The data are stored as they are, or deflated. -/
inductive Packed (inflate : Bytes → Bytes × GoErr) (m : Member) : Prop
  | stored : m.method = 0 → m.packed = m.data → Packed inflate m
  | deflated : m.method = 8 → inflate m.packed = (m.data, .eof) → Packed inflate m

/-- What follows the compressed data: a data descriptor (4.3.9, with or without a signature) if bit 3 of the flags is set, and then
anything. -/
inductive AfterData (crc : Nat) (m : Member) : Bytes → Prop
  | plain (rest : Bytes) : m.flags.testBit 3 = false → AfterData crc m rest
  | signed (rest : Bytes) : m.flags.testBit 3 = true →
      AfterData crc m ([0x50, 0x4B, 7, 8] ++ (leBytes 4 crc ++ (leBytes 4 m.packed.length ++ (leBytes 4 m.data.length ++ rest))))
  | unsigned (rest : Bytes) : m.flags.testBit 3 = true → leBytes 4 crc ≠ [0x50, 0x4B, 7, 8] →
      AfterData crc m (leBytes 4 crc ++ (leBytes 4 m.packed.length ++ (leBytes 4 m.data.length ++ rest)))

/-- The local header (4.3.7) of a member, its data, which begin at `start`, and what follows, at its offset in the file. Version, time,
checksum and sizes (`made`, `time`, `sizes`) can be anything here; they are in the directory. -/
def LocalData (crc : Nat) (file : Bytes) (m : Member) (start : Nat) : Prop :=
  ∃ before made time sizes extra after : Bytes, before.length = m.offset ∧ made.length = 2 ∧ time.length = 4 ∧ sizes.length = 12 ∧
    m.name.length < 65536 ∧ extra.length < 65536 ∧ AfterData crc m after ∧
    file = before ++ ([0x50, 0x4B, 3, 4] ++ (made ++ (leBytes 2 m.flags ++ (leBytes 2 m.method ++ (time ++ (sizes ++
      (leBytes 2 m.name.length ++ (leBytes 2 extra.length ++ (m.name ++ (extra ++ (m.packed ++ after))))))))))) ∧
    start = m.offset + (30 + m.name.length + extra.length)

/-- The member is in the file, at its offset. -/
def LocalAt (crc : Nat) (file : Bytes) (m : Member) : Prop := ∃ start, LocalData crc file m start

/-- The header of a member in the directory (4.3.12). Versions, time, disk, attributes, extra fields and comment can be
anything. -/
def CentralHeader (crc : Nat) (m : Member) (bs : Bytes) : Prop :=
  ∃ made time attrs extra comment : Bytes, made.length = 4 ∧ time.length = 4 ∧ attrs.length = 8 ∧ extra.length < 65536 ∧
    comment.length < 65536 ∧
    bs = [0x50, 0x4B, 1, 2] ++ (made ++ (leBytes 2 m.flags ++ (leBytes 2 m.method ++ (time ++ (leBytes 4 crc ++
      (leBytes 4 m.packed.length ++ (leBytes 4 m.data.length ++ (leBytes 2 m.name.length ++ (leBytes 2 extra.length ++
        (leBytes 2 comment.length ++ (attrs ++ (leBytes 4 m.offset ++ (m.name ++ (extra ++ comment))))))))))))))

/-- The directory: the headers one after another; `crc` gives the checksums in it. -/
inductive Directory (crc : Member → Nat) : List Member → Bytes → Prop
  | nil : Directory crc [] []
  | cons (m : Member) (ms : List Member) (bs rest : Bytes) : CentralHeader (crc m) m bs → Directory crc ms rest →
      Directory crc (m :: ms) (bs ++ rest)

/-- The end record of the directory (4.3.16). -/
def EndRecord (count size offset : Nat) (comment bs : Bytes) : Prop :=
  ∃ disks here : Bytes, disks.length = 4 ∧ here.length = 2 ∧
    bs = [0x50, 0x4B, 5, 6] ++ (disks ++ (here ++ (leBytes 2 count ++ (leBytes 4 size ++ (leBytes 4 offset ++
      (leBytes 2 comment.length ++ comment))))))

/-- The checksums of the data. -/
abbrev ofData (crc : Bytes → Nat) : Member → Nat := fun m => crc m.data

/-- The directory, the end record and what is between them and after them; `front` is everything before the directory. Between the
directory and the end record there can be something (`gap`, like a digital signature). No Zip64 locator is before the end record, and
the signature of the end record is not repeated so that it can be taken for a later end record. -/
def Layout (crc : Member → Nat) (file : Bytes) (ms : List Member) (front : Bytes) : Prop :=
  ∃ dir gap fin comment : Bytes, file = front ++ (dir ++ (gap ++ fin)) ∧ Directory crc ms dir ∧
    EndRecord ms.length dir.length front.length comment fin ∧ dir.length < 2 ^ 32 ∧ front.length < 2 ^ 32 ∧ comment.length < 65536 ∧
    (¬ [0x50, 0x4B, 1, 2] <+: gap ++ fin) ∧
    (∀ i, 0 < i → i ≤ comment.length → ¬ [0x50, 0x4B, 5, 6] <+: fin.drop i) ∧
    (∀ before last, front ++ (dir ++ gap) = before ++ last → last.length = 20 → ¬ [0x50, 0x4B, 6, 7] <+: last)

/-- A zip archive with the members `ms`, in the order of its directory. The members can be anywhere in the file and in any order,
with anything between them, also before the first. The archive is not of the Zip64 extension: no size or offset needs it. -/
structure ZipFile (inflate : Bytes → Bytes × GoErr) (crc : Member → Nat) (file : Bytes) (ms : List Member) : Prop where
  checksums : ∀ m ∈ ms, crc m < 2 ^ 32
  packed : ∀ m ∈ ms, Packed inflate m
  fits : ∀ m ∈ ms, m.packed.length < 2 ^ 32 - 1 ∧ m.data.length < 2 ^ 32 - 1 ∧ m.offset < 2 ^ 32 - 1 ∧ m.flags < 65536
  locals : ∀ m ∈ ms, LocalAt (crc m) file m
  layout : ∃ front, Layout crc file ms front

/-- An archive, and one that differs from it in the members named `n`, of which the first has other data than the checksum in the
directory says. The checksums in the second archive are `sum`; one that is zero, without a data descriptor, stands for none. -/
structure DamagedPart (inflate : Bytes → Bytes × GoErr) (crc : Bytes → Nat) (sum : Member → Nat) (n file file' : Bytes) (ms ms' : List Member) :
    Prop where
  intact : ZipFile inflate (ofData crc) file ms
  damaged : ZipFile inflate sum file' ms'
  same : (ms.filter (fun m => decide (m.name ≠ n))).map (fun m => (m.name, m.data)) =
    (ms'.filter (fun m => decide (m.name ≠ n))).map (fun m => (m.name, m.data))
  others : ∀ m ∈ ms', m.name ≠ n → sum m = crc m.data
  first : ∃ before m after, ms' = before ++ m :: after ∧ (∀ x ∈ before, x.name ≠ n) ∧ m.name = n ∧ crc m.data ≠ sum m ∧
    (m.flags.testBit 3 = true ∨ sum m ≠ 0)

end Grate.Spec
