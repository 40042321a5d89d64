import Verif.Model.Base

/-! # Specification: compound documents (sectors, chains, directory entries), after MS-CFB -/

namespace Grate.Spec

/-- Sector `i` of a file with sectors of `2^shift` bytes (the header takes the place of sector -1). -/
def sector (file : Bytes) (shift i : Nat) : Bytes := (file.drop ((i + 1) * 2 ^ shift)).take (2 ^ shift)

/-- Sector `i` lies completely inside the file. -/
def HasSector (file : Bytes) (shift i : Nat) : Prop := (i + 2) * 2 ^ shift ≤ file.length

/-- Mini sector `i` (64 bytes) of the mini stream `m`. -/
def miniSector (m : Bytes) (i : Nat) : Bytes := (m.drop (i * 64)).take 64

/-- Regular sector numbers (up to MAXREGSECT). -/
def Regular (i : Nat) : Prop := i ≤ 0xFFFFFFFA

/-- `ids` is a run of the chain that starts at `s`: each number is what the table holds for the one
before. -/
inductive Run (table : List Nat) : (s : Nat) → (ids : List Nat) → Prop where
  | one (s : Nat) : Run table s [s]
  | cons (s t : Nat) (ids : List Nat) : table[s]? = some t → Run table t ids → Run table s (s :: ids)

/-- `ids` is the whole chain that starts at `s`, up to the end-of-chain mark. -/
inductive Chain (table : List Nat) : (s : Nat) → (ids : List Nat) → Prop where
  | done : Chain table 0xFFFFFFFE []
  | cons (s t : Nat) (ids : List Nat) : table[s]? = some t → Chain table t ids → Chain table s (s :: ids)

/-- `n` in `k` little-endian bytes. -/
def leBytes : (k n : Nat) → Bytes
  | 0, _ => []
  | k + 1, n => UInt8.ofNat (n % 256) :: leBytes k (n / 256)

/-- A directory entry: name (UTF-16 units without the terminator), object type, first sector, size. -/
structure Entry where
  name : List Nat
  objType : Nat
  start : Nat
  size : Nat

/-- Entries that fit the format. -/
structure Entry.Ok (e : Entry) : Prop where
  nameLen : e.name.length ≤ 31
  nameU16 : ∀ u ∈ e.name, u < 65536
  objType : 0 < e.objType ∧ e.objType < 256
  start : e.start < 2 ^ 32
  size : e.size < 2 ^ 32

/-- The 128 bytes of an entry; `mid` are the 49 bytes of tree links, class id, state and times. -/
def Entry.bytes (e : Entry) (mid : Bytes) : Bytes :=
  (e.name ++ List.replicate (32 - e.name.length) 0).flatMap (leBytes 2) ++
    leBytes 2 (2 * (e.name.length + 1)) ++ leBytes 1 e.objType ++ mid ++ leBytes 4 e.start ++ leBytes 8 e.size

end Grate.Spec

namespace Grate.Spec

/-- The bytes every compound document starts with. -/
def signature : Bytes := [0xD0, 0xCF, 0x11, 0xE0, 0xA1, 0xB1, 0x1A, 0xE1]

/-- The 32-bit little-endian words of a sector. -/
def words : Bytes → List Nat
  | a :: b :: c :: d :: rest => (a.toNat + 256 * (b.toNat + 256 * (c.toNat + 256 * d.toNat))) :: words rest
  | _ => []

/-- The allocation table stored in the sectors `sids`. -/
def table (file : Bytes) (shift : Nat) (sids : List Nat) : List Nat :=
  sids.flatMap (fun i => words (sector file shift i))

/-- A well-formed version 3 header: the fields a reader needs, and the list of FAT sectors (up to 109).
`minor`, `x`, `y` and `z` are the fields that do not matter here (minor version, number of FAT sectors,
transaction number, number of mini FAT sectors). -/
structure Head where
  minor : Nat
  numFAT : Nat
  firstDir : Nat
  trans : Nat
  firstMiniFAT : Nat
  numMiniFAT : Nat
  firstDIFAT : Nat
  numDIFAT : Nat
  fatSectors : List Nat

/-- The bytes of a version 3 header. -/
def Head.bytes (h : Head) : Bytes :=
  signature ++ leBytes 8 0 ++ leBytes 8 0 ++ leBytes 2 h.minor ++ leBytes 2 3 ++ leBytes 2 0xFFFE ++ leBytes 2 9 ++
    leBytes 2 6 ++ List.replicate 6 0 ++ leBytes 4 0 ++ leBytes 4 h.numFAT ++ leBytes 4 h.firstDir ++
    leBytes 4 h.trans ++ leBytes 4 0x1000 ++ leBytes 4 h.firstMiniFAT ++ leBytes 4 h.numMiniFAT ++
    leBytes 4 h.firstDIFAT ++ leBytes 4 h.numDIFAT ++
    (h.fatSectors ++ List.replicate (109 - h.fatSectors.length) 0xFFFFFFFF).flatMap (leBytes 4)

end Grate.Spec

namespace Grate.Spec

/-- `ids` are the FAT sectors listed in the chain of DIFAT sectors that starts at `s`: 127 words per sector
name FAT sectors (or nothing), the last word is the next DIFAT sector. -/
inductive Difat (file : Bytes) : (s : Nat) → (ids : List Nat) → Prop where
  | done : Difat file 0xFFFFFFFE []
  | cons (s : Nat) (ids : List Nat) : Regular s → HasSector file 9 s →
      Difat file ((words (sector file 9 s))[127]?.getD 0) ids →
      Difat file s (((words (sector file 9 s)).take 127).filter
        (fun i => i ≠ 0xFFFFFFFF ∧ i ≠ 0xFFFFFFFE) ++ ids)

/-- A slot of the directory: an entry (with its 49 other bytes), or 128 bytes that are marked unused. -/
inductive Slot where
  | used (e : Entry) (mid : Bytes)
  | free (b : Bytes)

/-- The bytes of a slot. -/
def Slot.bytes : Slot → Bytes
  | .used e mid => e.bytes mid
  | .free b => b

/-- Slots that fit the format. -/
def Slot.Ok : Slot → Prop
  | .used e mid => e.Ok ∧ mid.length = 49
  | .free b => b.length = 128 ∧ b[66]? = some 0

/-- The entries of a list of slots. -/
def entries : List Slot → List Entry
  | [] => []
  | .used e _ :: s => e :: entries s
  | .free _ :: s => entries s

/-- The streams among the entries. -/
def streams (es : List Entry) : List Entry := es.filter (fun e => e.objType = 2)

/-- A compound document of version 3: the header, the FAT sectors named by the header and by the DIFAT
chain, the resulting allocation table, and the directory. -/
structure Doc (file : Bytes) (h : Head) (fat : List Nat) (slots : List Slot) : Prop where
  header : ∃ rest, file = h.bytes ++ rest
  numFAT : h.numFAT < 2 ^ 31 - 1
  firstDir : h.firstDir < 2 ^ 32
  firstMiniFAT : h.firstMiniFAT < 2 ^ 32
  numMiniFAT : h.numMiniFAT < 2 ^ 31 - 1
  firstDIFAT : h.firstDIFAT < 2 ^ 32
  numDIFAT : h.numDIFAT < 2 ^ 31
  headFAT : h.fatSectors.length ≤ 109
  table : ∃ ids, (0 < h.numDIFAT ∧ Difat file h.firstDIFAT ids ∨ h.numDIFAT = 0 ∧ ids = []) ∧
    (∀ i ∈ h.fatSectors ++ ids, Regular i ∧ HasSector file 9 i) ∧ fat = table file 9 (h.fatSectors ++ ids)
  dir : ∃ ids, Chain fat h.firstDir ids ∧ (∀ i ∈ ids, Regular i ∧ HasSector file 9 i) ∧
    (ids.map (sector file 9)).flatten = slots.flatMap Slot.bytes
  slotsOk : ∀ s ∈ slots, s.Ok
  root : ∃ e mid s, slots = .used e mid :: s ∧ e.objType = 5 ∧ ∀ x ∈ entries s, x.objType ≠ 5

/-- The mini FAT of a document that has none, or as far as its first sector goes. -/
inductive MiniLoaded (file : Bytes) (h : Head) : List Nat → Prop where
  | none : h.firstMiniFAT = 0xFFFFFFFE → MiniLoaded file h []
  | one : Regular h.firstMiniFAT → HasSector file 9 h.firstMiniFAT → h.numMiniFAT ≤ 128 →
      MiniLoaded file h (words (sector file 9 h.firstMiniFAT))

end Grate.Spec
