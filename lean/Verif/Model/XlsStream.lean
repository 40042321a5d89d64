import Verif.Model.Cfb
import Verif.Model.Crypto
import Verif.Model.Format
import Verif.Model.Registry
import Verif.Model.XlsStrings

/-! # Model of `/repo/xls/xls.go`: records, substreams and the workbook globals

The record pool is not modelled: records are fresh. Log output is not modelled. -/

namespace Grate.Xls

/-- `rec`, `/repo/xls/structs.go:17-21`. The data is a part of the stream: its capacity reaches to the end of the
stream and beyond. -/
structure Rec where
  type : Nat
  size : Nat
  data : Slice

/-- `nextRecord`, `/repo/xls/xls.go:346-360`: the record and its length in the stream. The sum `4+rec.RecSize` is
16-bit. -/
def nextRecord (raw : Slice) : GoRes (Rec × Nat) :=
  if raw.len < 4 then .err .eof
  else do
    let type ← (← raw.sub 0 2).u16
    let size ← (← raw.sub 2 4).u16
    if (← raw.dropFrom 4).len < size then .err .unexpectedEOF
    else
      let data ← raw.sub 4 ((4 + size) % 65536)
      pure (⟨type, size, data⟩, (4 + size) % 65536)

/-- Record types, `/repo/xls/records.go`. -/
def recEOF : Nat := 10
/-- see `recEOF` -/
def recBOF : Nat := 2057
/-- see `recEOF` -/
def recFilePass : Nat := 47
/-- see `recEOF` -/
def recContinue : Nat := 60

/-- The state of the grouping loop, `/repo/xls/xls.go:175-230`: `substr` is -1 before the first BOF;
`pos2` is `pos2substream`, the latest entry first. -/
structure Groups where
  subs : List (List Rec)
  substr : Int
  nested : Int
  pos2 : List (Nat × Nat)
  fpos : Nat

/-- The state at the start, `/repo/xls/xls.go:176-190`. -/
def Groups.init : Groups := ⟨[], -1, 0, [], 0⟩

/-- The switch on the record type and the position, `/repo/xls/xls.go:195-207`. -/
def Groups.count (g : Groups) (nr : Rec) : Groups :=
  let g :=
    if nr.type = recEOF then { g with nested := g.nested - 1 }
    else if nr.type = recBOF then
      let g := if g.nested = 0 then
        { g with substr := g.subs.length, subs := g.subs ++ [[]], pos2 := (g.fpos, g.subs.length) :: g.pos2 }
      else g
      { g with nested := g.nested + 1 }
    else g
  { g with fpos := g.fpos + (4 + nr.data.len) }

/-- `b.substreams[substr] = append(b.substreams[substr], nr)`, `/repo/xls/xls.go:228`. -/
def Groups.place (g : Groups) (nr : Rec) : GoRes Groups :=
  if 0 ≤ g.substr ∧ g.substr < g.subs.length then
    .ok { g with subs := g.subs.modify g.substr.toNat (· ++ [nr]) }
  else .panic

/-- How the grouping loop ends: at the end of the stream, or at a FilePass record (with its data). -/
inductive Gathered where
  | done (g : Groups)
  | filePass (data : Slice)

theorem nextRecord_pos {raw : Slice} {nr : Rec} {no : Nat} {raw' : Slice} (h : nextRecord raw = .ok (nr, no))
    (h' : raw.dropFrom no = .ok raw') : raw'.len < raw.len := by
  unfold nextRecord at h
  split at h
  · cases h
  · simp only [GoRes.bind_eq_ok] at h
    obtain ⟨_, _, _, _, _, _, _, _, b, _, h⟩ := h
    split at h
    · cases h
    · rw [GoRes.bind_eq_ok] at h
      obtain ⟨d, hd, h⟩ := h
      cases h
      unfold Slice.sub at hd
      split at hd
      · unfold Slice.dropFrom at h'
        split at h'
        · cases h'
          unfold Slice.len
          simp only [List.length_drop]
          omega
        · cases h'
      · cases hd

/-- The grouping loop, `/repo/xls/xls.go:191-236`. -/
def gather (isDecrypted : Bool) (raw : Slice) (g : Groups) : GoRes Gathered :=
  match _h : nextRecord raw with
  | .err .eof => .ok (.done g)
  | .err e => .err e
  | .panic => .panic
  | .ok (nr, no) =>
    match _h' : raw.dropFrom no with
    | .ok raw' =>
      let g := g.count nr
      if nr.type = recFilePass ∧ isDecrypted = false then .ok (.filePass nr.data)
      else
        match g.place nr with
        | .ok g => gather isDecrypted raw' g
        | .err e => .err e
        | .panic => .panic
    | .err e => .err e
    | .panic => .panic
  termination_by raw.len
  decreasing_by exact nextRecord_pos _h _h'

/-- `boundSheet`, `/repo/xls/structs.go:23-28`. -/
structure BoundSheet where
  position : Nat
  hidden : UInt8
  type : UInt8
  name : Bytes

/-- The parts of `WorkBook`, `/repo/xls/xls.go:25-45`, that are used after loading. -/
structure Book where
  sheets : List BoundSheet
  dateMode : Nat
  strings : List Bytes
  subs : List (List Rec)
  pos2 : List (Nat × Nat)
  nfmt : Formatter
  xfs : List Nat

/-- The checks of a BOF record, `/repo/xls/xls.go:270-284`. -/
def checkBOF (data : Slice) : GoRes Unit := do
  let version ← (← data.sub 0 2).u16
  let _ ← (← data.sub 2 4).u16
  let _ ← (← data.sub 4 6).u16
  let rupYear ← (← data.sub 6 8).u16
  let _ ← (← data.sub 8 16).u64
  if version ≠ 0x0600 then .err (.msg "xls: invalid file version")
  else if rupYear ≠ 0x07CC ∧ rupYear ≠ 0x07CD then .err (.msg "xls: unsupported biff version")
  else pure ()

/-- A BoundSheet8 record, `/repo/xls/xls.go:316-328`. -/
def boundSheet (data : Slice) : GoRes BoundSheet := do
  let position ← (← data.sub 0 4).u32
  let hidden ← data.idx 4
  let type ← data.idx 5
  let (name, _) ← decodeShort (← data.dropFrom 6)
  pure ⟨position, hidden, type, name⟩

/-- One record of the processing pass, `/repo/xls/xls.go:243-333`, with the records after it in its
substream. `mk` is `makeFormatter`; the error of `Add` is ignored as in the code. -/
def processRec (mk : Bytes → Fmt × CellType) (nr : Rec) (later : List Rec) (b : Book) : GoRes Book :=
  if nr.data.len = 0 then .ok b
  else if nr.type = 252 then do
    let strings ← parseSST (nr.data :: (later.takeWhile (·.type = recContinue)).map Rec.data)
    pure { b with strings := strings }
  else if nr.type = recBOF then do
    checkBOF nr.data
    pure b
  else if nr.type = 66 then do
    let _ ← nr.data.u16
    pure b
  else if nr.type = 34 then do
    let m ← nr.data.u16
    pure { b with dateMode := m }
  else if nr.type = 1054 then do
    let no ← nr.data.u16
    let (code, _) ← decodeLong (← nr.data.dropFrom 2)
    pure { b with nfmt := (b.nfmt.add mk no code).1 }
  else if nr.type = 224 then do
    let no ← (← nr.data.dropFrom 2).u16
    pure { b with xfs := b.xfs ++ [no] }
  else if nr.type = 133 then do
    let bs ← boundSheet nr.data
    pure { b with sheets := b.sheets ++ [bs] }
  else .ok b

/-- The records of one substream. -/
def processSub (mk : Bytes → Fmt × CellType) : List Rec → Book → GoRes Book
  | [], b => .ok b
  | nr :: later, b => do
    let b ← processRec mk nr later b
    processSub mk later b

/-- All substreams, `/repo/xls/xls.go:238-335`. -/
def processSubs (mk : Bytes → Fmt × CellType) : List (List Rec) → Book → GoRes Book
  | [], b => .ok b
  | s :: ss, b => do
    let b ← processSub mk s b
    processSubs mk ss b

/-- The workbook before the processing pass, `/repo/xls/xls.go:58-64` and `175-190`. -/
def Groups.book (g : Groups) : Book := ⟨[], 0, [], g.subs, g.pos2, Formatter.new, []⟩

/-- Loading a decrypted stream, `/repo/xls/xls.go:175-338` with `isDecrypted`. -/
def loadDecrypted (mk : Bytes → Fmt × CellType) (raw : Slice) : GoRes Book := do
  match ← gather true raw Groups.init with
  | .done g => processSubs mk g.subs g.book
  | .filePass _ => .panic

/-- `loadFromStream`, `/repo/xls/xls.go:79-81` and `175-338`; `spare` are the unspecified bytes in the capacity of
the buffer of the decryptor. -/
def loadStream (p : Crypto.Prims) (mk : Bytes → Fmt × CellType) (spare : Bytes) (raw : Slice) : GoRes Book := do
  match ← gather false raw Groups.init with
  | .done g => processSubs mk g.subs g.book
  | .filePass data =>
    let etype ← data.u16
    if etype = 1 then
      let dec ← Crypto.newBasicRC4 p (← data.dropFrom 2).val
      let all ← Crypto.decryptStream p raw dec
      loadDecrypted mk ⟨all, spare⟩
    else if etype = 2 ∨ etype = 3 ∨ etype = 4 then
      .err (.msg "xls: unsupported Crypto API encryption method")
    else .err (.msg "xls: unsupported encryption method")

/-- `Open`, `/repo/xls/xls.go:52-77`, on the contents of the file: `fuel` for the loops of the container, `ks` the
buffer sizes of `io.ReadAll`; `none` when they do not suffice. -/
def openFile (p : Crypto.Prims) (mk : Bytes → Fmt × CellType) (spare : Bytes) (fuel : Nat) (ks : List Nat)
    (file : Slice) : Option (GoRes Book) :=
  match Cfb.load fuel file with
  | none => none
  | some (.err e) => some (.err e)
  | some .panic => some .panic
  | some (.ok doc) =>
    match Cfb.openStream doc (lit "Workbook") with
    | .err e => some (.err (wrapErr [e, .notInFormat]))
    | .panic => some .panic
    | .ok rdr =>
      match rdr.readAll ks with
      | none => none
      | some (.err e) => some (.err e)
      | some .panic => some .panic
      | some (.ok raw) => some (loadStream p mk spare ⟨raw, spare⟩)

/-- `List`, `/repo/xls/sheets.go:15-23`. -/
def Book.list (b : Book) : List Bytes := (b.sheets.filter (fun s => s.hidden &&& 3 = 0)).map BoundSheet.name

/-- `ListHidden`, `/repo/xls/sheets.go:26-34`. -/
def Book.listHidden (b : Book) : List Bytes := (b.sheets.filter (fun s => s.hidden &&& 3 ≠ 0)).map BoundSheet.name

/-- `b.pos2substream[int64(pos)]`, 0 for an unknown position. -/
def Book.subIndex (b : Book) (pos : Nat) : Nat := (b.pos2.lookup pos).getD 0

/-- `Close`, `/repo/xls/xls.go:162-173`. -/
def Book.close (b : Book) : Book := { b with subs := [] }

end Grate.Xls
