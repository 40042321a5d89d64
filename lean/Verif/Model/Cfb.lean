import Verif.Model.SliceReader
import Verif.Model.Unicode

/-! # Model of `/repo/xls/cfb/cfb.go` and `/repo/xls/cfb/interface.go` -/

namespace Grate.Cfb

/-- `secFree`, `/repo/xls/cfb/cfb.go:24`. -/
def secFree : Nat := 0xFFFFFFFF
/-- `secEndOfChain`, `/repo/xls/cfb/cfb.go:25`. -/
def secEndOfChain : Nat := 0xFFFFFFFE

/-- Little-endian number in the bytes `b` (decoding of fixed-size fields by `binary.Read`). -/
def leNat : Bytes → Nat
  | [] => 0
  | a :: as => a.toNat + 256 * leNat as

/-- Field of `n` bytes at offset `i`. -/
def field (b : Bytes) (i n : Nat) : Nat := leNat ((b.drop i).take n)

/-- Two's complement reading of an unsigned 32-bit value. -/
def toI32 (n : Nat) : Int := if n < 2147483648 then n else (n : Int) - 4294967296

/-- Two's complement reading of an unsigned 16-bit value. -/
def toI16 (n : Nat) : Int := if n < 32768 then n else (n : Int) - 65536

/-- `header`, `/repo/xls/cfb/cfb.go:33-52` (`TransactionSignature` is never used and left out). -/
structure Header where
  signature : Nat
  classID : Nat × Nat
  minor : Nat
  major : Nat
  byteOrder : Nat
  sectorShift : Nat
  miniSectorShift : Nat
  reserved : Bytes
  numDirSectors : Int
  numFATSectors : Int
  firstDir : Nat
  cutoff : Int
  firstMiniFAT : Nat
  numMiniFAT : Int
  firstDIFAT : Nat
  numDIFAT : Int
  difat : List Nat

/-- `binary.Read(br, binary.LittleEndian, h)`, `/repo/xls/cfb/cfb.go:113-114`: 512 bytes, or nothing at all
(the error is ignored and the header stays zero). -/
def parseHeader (b : Bytes) : Header :=
  let b := if b.length < 512 then List.replicate 512 0 else b
  { signature := field b 0 8
    classID := (field b 8 8, field b 16 8)
    minor := field b 24 2
    major := field b 26 2
    byteOrder := field b 28 2
    sectorShift := field b 30 2
    miniSectorShift := field b 32 2
    reserved := (b.drop 34).take 6
    numDirSectors := toI32 (field b 40 4)
    numFATSectors := toI32 (field b 44 4)
    firstDir := field b 48 4
    cutoff := toI32 (field b 56 4)
    firstMiniFAT := field b 60 4
    numMiniFAT := toI32 (field b 64 4)
    firstDIFAT := field b 68 4
    numDIFAT := toI32 (field b 72 4)
    difat := (List.range 109).map (fun i => field b (76 + 4 * i) 4) }

/-- The checks of `/repo/xls/cfb/cfb.go:115-157` (`none`: all passed; the minor version is only logged). -/
def headerErr (h : Header) : Option GoErr :=
  if h.signature ≠ 0xe11ab1a1e011cfd0 then some .notInFormat
  else if h.byteOrder ≠ 0xFFFE then some .notInFormat
  else if h.classID.1 ≠ 0 ∨ h.classID.2 ≠ 0 then some .notInFormat
  else if h.major ≠ 3 ∧ h.major ≠ 4 then some (.msg "ole2: unknown major version")
  else if h.reserved.any (· ≠ 0) then some (.msg "ole2: reserved section is non-zero")
  else if h.major = 3 ∧ h.sectorShift ≠ 9 then some (.msg "ole2: invalid sector size")
  else if h.major = 3 ∧ h.numDirSectors ≠ 0 then
    some (.msg "ole2: version 3 does not support directory sectors")
  else if h.major = 4 ∧ h.sectorShift ≠ 12 then some (.msg "ole2: invalid sector size")
  else if h.miniSectorShift ≠ 6 then some (.msg "ole2: invalid mini sector size")
  else if h.cutoff ≠ 0x1000 then some (.msg "ole2: invalid mini sector cutoff")
  else none

/-- `directory`, `/repo/xls/cfb/cfb.go:63-77` (the fields that are used). `start` is
`StartingSectorLocation` after the conversion to `uint32`. -/
structure Dir where
  name : List Nat
  nameByteLen : Int
  objType : Nat
  start : Nat
  size : Nat

/-- `directory.String`, `/repo/xls/cfb/cfb.go:79-86`. -/
def Dir.string (d : Dir) : GoRes Bytes :=
  if d.nameByteLen % 2 = 1 ∨ 64 < d.nameByteLen then .ok (lit "<invalid utf16 string>")
  else if d.nameByteLen < 0 then .panic
  else
    let r16 := utf16Decode (d.name.take (d.nameByteLen / 2).toNat)
    if r16.length = 0 then .panic else .ok (utf8Encode r16.dropLast)

/-- `binary.Read(br, le, dirent)` at offset `off`, `/repo/xls/cfb/cfb.go:252-257`: 128 bytes, or an
all-zero entry when fewer are left (the error is ignored); version 3 keeps 32 bits of the size. -/
def readDir (b : Bytes) (off : Nat) (major : Nat) : Dir :=
  let e := if b.length < off + 128 then List.replicate 128 0 else (b.drop off).take 128
  { name := (List.range 32).map (fun i => field e (2 * i) 2)
    nameByteLen := toI16 (field e 64 2)
    objType := field e 66 1
    start := field e 116 4
    size := if major = 3 then field e 120 8 % 4294967296 else field e 120 8 }

/-- `Document`, `/repo/xls/cfb/cfb.go:89-103`. `data` is the buffer returned by `ioutil.ReadAll`, which may
have spare capacity behind the file contents. -/
structure Document where
  data : Slice
  header : Header
  dir : List Dir
  fat : List Nat
  minifat : List Nat
  mstart : Nat
  msize : Nat

/-- `int64(1+sid) << SectorShift`: the addition is in `uint32`, `/repo/xls/cfb/cfb.go:171`. -/
def secOff (shift sid : Nat) : Nat := (1 + sid) % 4294967296 * 2 ^ shift

/-- `n` times `le.Uint32(sector); sector = sector[4:]`, `/repo/xls/cfb/cfb.go:176-180`. -/
def readU32s : Nat → Slice → GoRes (List Nat × Slice)
  | 0, s => .ok ([], s)
  | n + 1, s => do
    let v ← s.u32
    let s' ← s.dropFrom 4
    let (vs, s'') ← readU32s n s'
    pure (v :: vs, s'')

/-- One FAT sector, `/repo/xls/cfb/cfb.go:171-180, 196-205`. -/
def readFatSector (data : Slice) (shift sid : Nat) : GoRes (List Nat) := do
  if data.len ≤ secOff shift sid then .err (.msg "xls/cfb: unable to load file")
  else
    let sector ← data.dropFrom (secOff shift sid)
    let (vs, _) ← readU32s (2 ^ (shift - 2)) sector
    pure vs

/-- The FAT sectors listed in the header, up to the first free entry, `/repo/xls/cfb/cfb.go:166-181`. -/
def loadHeaderDifat (data : Slice) (shift : Nat) : List Nat → GoRes (List Nat)
  | [] => .ok []
  | sid :: sids =>
    if sid = secFree then .ok []
    else do
      let vs ← readFatSector data shift sid
      let ws ← loadHeaderDifat data shift sids
      pure (vs ++ ws)

/-- The entries of one DIFAT sector, `/repo/xls/cfb/cfb.go:189-208`; also the rest of the sector. -/
def loadDifatSector (data : Slice) (shift : Nat) : Nat → Slice → GoRes (List Nat × Slice)
  | 0, s => .ok ([], s)
  | n + 1, s => do
    let sid2 ← s.u32
    let vs ← if sid2 = secFree ∨ sid2 = secEndOfChain then pure [] else readFatSector data shift sid2
    let s' ← s.dropFrom 4
    let (ws, s'') ← loadDifatSector data shift n s'
    pure (vs ++ ws, s'')

/-- The chain of DIFAT sectors, `/repo/xls/cfb/cfb.go:185-211`; `none` when the fuel runs out, which no
amount of fuel prevents if the chain is cyclic. -/
def difatLoop (data : Slice) (shift : Nat) : Nat → Nat → Option (GoRes (List Nat))
  | 0, _ => none
  | fuel + 1, sid1 =>
    if sid1 = secEndOfChain then some (.ok [])
    else
      match (do
        let s ← data.dropFrom (secOff shift sid1)
        let (vs, s') ← loadDifatSector data shift (2 ^ (shift - 2) - 1) s
        let nxt ← s'.u32
        pure (vs, nxt) : GoRes (List Nat × Nat)) with
      | .ok (vs, nxt) => (difatLoop data shift fuel nxt).map (fun r => (vs ++ ·) <$> r)
      | .err e => some (.err e)
      | .panic => some .panic

/-- The mini FAT, `/repo/xls/cfb/cfb.go:215-234`; `acc` is `d.minifat` so far; `none` when the fuel runs
out (it never does, see `C37_minifat_terminates`). -/
def minifatLoop (data : Slice) (shift : Nat) (numMini : Int) :
    Nat → Nat → List Nat → Option (GoRes (List Nat))
  | 0, _, _ => none
  | fuel + 1, sid, acc =>
    if sid = secEndOfChain then some (.ok acc)
    else if data.len ≤ secOff shift sid then some (.err (.msg "xls/cfb: unable to load file"))
    else
      match (do
        let s ← data.dropFrom (secOff shift sid)
        readU32s (2 ^ (shift - 2)) s : GoRes (List Nat × Slice)) with
      | .ok (vs, s) =>
        if numMini ≤ ((acc ++ vs).length : Int) then some (.ok (acc ++ vs))
        else
          match s.u32 with
          | .ok nxt => minifatLoop data shift numMini fuel nxt (acc ++ vs)
          | .err e => some (.err e)
          | .panic => some .panic
      | .err e => some (.err e)
      | .panic => some .panic

/-- The directory loop (at most `n` entries from offset `off`), `/repo/xls/cfb/cfb.go:251-278`: entries,
and start and size of the mini stream if a root entry was seen. -/
def buildDirs (b : Bytes) (major : Nat) : Nat → Nat → List Dir × Option (Nat × Nat)
  | 0, _ => ([], none)
  | n + 1, off =>
    let e := readDir b off major
    if e.objType = 0 then ([], none)
    else
      let (es, ms) := buildDirs b major n (off + 128)
      let ms := match ms with
        | some m => some m
        | none => if e.objType = 5 then some (e.start, e.size % 4294967296) else none
      (e :: es, ms)

/-- `Document.load`, `/repo/xls/cfb/cfb.go:105-240`, on the contents of the file. `make` with a negative
capacity panics (lines 162-163); memory exhaustion is not modelled. `none`: out of fuel. -/
def load (fuel : Nat) (data : Slice) : Option (GoRes Document) :=
  let h := parseHeader data.val
  match headerErr h with
  | some e => some (.err e)
  | none =>
    if h.numFATSectors < -1 ∨ h.numFATSectors = 2147483647 ∨ h.numMiniFAT < -1 ∨ h.numMiniFAT = 2147483647
    then some .panic
    else
      match loadHeaderDifat data h.sectorShift h.difat with
      | .panic => some .panic
      | .err e => some (.err e)
      | .ok fat1 =>
        match (if 0 < h.numDIFAT then difatLoop data h.sectorShift fuel h.firstDIFAT else some (.ok [])) with
        | none => none
        | some .panic => some .panic
        | some (.err e) => some (.err e)
        | some (.ok fat2) =>
          match minifatLoop data h.sectorShift h.numMiniFAT fuel h.firstMiniFAT [] with
          | none => none
          | some .panic => some .panic
          | some (.err e) => some (.err e)
          | some (.ok mf) =>
            let (es, ms) := buildDirs data.val h.major 4 (secOff h.sectorShift h.firstDir)
            let m := ms.getD (0, 0)
            some (.ok ⟨data, h, es, fat1 ++ fat2, mf, m.1, m.2⟩)

/-- `slice[:size]` when the slice is longer than what is missing, `/repo/xls/cfb/cfb.go:296-301`: the slice
(with its capacity) and the size still missing. -/
def cut (s : Slice) (size : Nat) : Slice × Nat :=
  if size < s.len then (⟨s.val.take size, s.val.drop size ++ s.rest⟩, 0) else (s, size - s.len)

/-- The loop of `getStreamReader`, `/repo/xls/cfb/cfb.go:290-308`: the filled slots and the size still
missing. The number of slots left bounds the loop, since `streamData[x]` panics without one. -/
def streamLoop (d : Document) : (slots : Nat) → (sid size : Nat) → GoRes (List Bytes × Nat)
  | slots, sid, size =>
    if sid = secEndOfChain ∨ sid = secFree then .ok ([], size)
    else if d.data.len < secOff d.header.sectorShift sid then .err (.msg "ole2: corrupt data format")
    else do
      let offs := secOff d.header.sectorShift sid
      let slice ← d.data.sub offs (offs + 2 ^ d.header.sectorShift)
      let (slice, size) := cut slice size
      match slots with
      | 0 => .panic
      | slots + 1 =>
        if size = 0 then pure ([slice.val], 0)
        else
          match d.fat[sid]? with
          | none => .panic
          | some nxt => do
            let (ds, left) ← streamLoop d slots nxt size
            pure (slice.val :: ds, left)

/-- `getStreamReader`, `/repo/xls/cfb/cfb.go:283-314`. `make` panics when the slice (24 bytes per element) would not fit
the address space of 2^48 bytes (amd64), which only sizes of version 4 can ask for. -/
def getStreamReader (d : Document) (sid size : Nat) : GoRes SliceReader := do
  let slots := 1 + size / 2 ^ d.header.sectorShift
  if 2 ^ 48 < 24 * slots then .panic
  let (ds, left) ← streamLoop d slots sid size
  if left ≠ 0 then .err (.msg "ole2: incomplete read")
  else pure (SliceReader.mk' (ds ++ List.replicate (slots - ds.length) []))

/-- The sectors of the mini stream, `/repo/xls/cfb/cfb.go:328-340` (the filled slots). -/
def miniSectorsLoop (d : Document) : (slots : Nat) → (fsid fsize : Nat) → GoRes (List Slice)
  | slots, fsid, fsize =>
    if fsid = secEndOfChain ∨ fsid = secFree then .ok []
    else do
      let offs := secOff d.header.sectorShift fsid
      let slice ← d.data.sub offs (offs + 2 ^ d.header.sectorShift)
      let (slice, fsize) := cut slice fsize
      match slots with
      | 0 => .panic
      | slots + 1 =>
        match d.fat[fsid]? with
        | none => .panic
        | some nxt => do
          let ds ← miniSectorsLoop d slots nxt fsize
          pure (slice :: ds)

/-- The mini sectors of the stream, `/repo/xls/cfb/cfb.go:344-360` (the filled slots); `fs` are all slots
of the mini stream. -/
def miniStreamLoop (d : Document) (fs : List Slice) : (slots : Nat) → (sid size : Nat) → GoRes (List Bytes)
  | slots, sid, size =>
    if sid = secEndOfChain ∨ sid = secFree then .ok []
    else do
      let secSize := 2 ^ d.header.sectorShift
      let miniSize := 2 ^ d.header.miniSectorShift
      let offs := sid * miniSize
      match fs[offs / secSize]? with
      | none => .panic
      | some data => do
        let slice ← data.sub (offs % secSize) (offs % secSize + miniSize)
        let (slice, size) := cut slice size
        match slots with
        | 0 => .panic
        | slots + 1 =>
          match d.minifat[sid]? with
          | none => .panic
          | some nxt => do
            let ds ← miniStreamLoop d fs slots nxt size
            pure (slice.val :: ds)

/-- `getMiniStreamReader`, `/repo/xls/cfb/cfb.go:316-363`. -/
def getMiniStreamReader (d : Document) (sid size : Nat) : GoRes SliceReader := do
  let fslots := 1 + d.msize / 2 ^ d.header.sectorShift
  let fs ← miniSectorsLoop d fslots d.mstart d.msize
  let fs := fs ++ List.replicate (fslots - fs.length) ⟨[], []⟩
  let slots := 1 + size / 2 ^ d.header.miniSectorShift
  let ds ← miniStreamLoop d fs slots sid size
  pure (SliceReader.mk' (ds ++ List.replicate (slots - ds.length) []))

/-- `Document.List`, `/repo/xls/cfb/interface.go:24-32`. -/
def listStreams : List Dir → GoRes (List Bytes)
  | [] => .ok []
  | e :: es =>
    if e.objType = 2 then do
      let n ← e.string
      let ns ← listStreams es
      pure (n :: ns)
    else listStreams es

/-- The error of `Document.Open` for an unknown name, `/repo/xls/cfb/interface.go:45`. -/
def notFound : GoErr := .msg "cfb: stream not found"

/-- `Document.Open`, `/repo/xls/cfb/interface.go:35-46`, over the remaining entries. -/
def openDirs (d : Document) (name : Bytes) : List Dir → GoRes SliceReader
  | [] => .err notFound
  | e :: es => do
    let n ← e.string
    if n = name ∧ e.objType = 2 then
      if (e.size : Int) < d.header.cutoff then getMiniStreamReader d e.start e.size
      else if e.size ≠ 0 then getStreamReader d e.start e.size
      else openDirs d name es
    else openDirs d name es

/-- `Document.Open`. -/
def openStream (d : Document) (name : Bytes) : GoRes SliceReader := openDirs d name d.dir

end Grate.Cfb
