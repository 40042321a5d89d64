import Verif.Spec.Crypto
import Verif.Spec.XlsStrings

/-! # Specification: records, substreams and sheet entries of workbook streams (MS-XLS 2.1.4, 2.1.7, 2.4.28) -/

namespace Grate.Spec

/-- Records that can be written: type and size are 16-bit fields (the format allows at most 8224 bytes). -/
def Record.Fits (r : Record) : Prop := r.type < 65536 ∧ r.data.length < 65532

/-- Record sequences in which every begin (BOF) has its end (EOF). -/
inductive Balanced : List Record → Prop
  | nil : Balanced []
  | plain (r : Record) (rs : List Record) : r.type ≠ 0x809 → r.type ≠ 0x0A → Balanced rs → Balanced (r :: rs)
  | block (b e : Record) (inner rs : List Record) : b.type = 0x809 → e.type = 0x0A → Balanced inner → Balanced rs →
      Balanced (b :: inner ++ e :: rs)

/-- A substream: BOF, balanced content, EOF. -/
def Substream (g : List Record) : Prop :=
  ∃ b inner e, g = b :: (inner ++ [e]) ∧ b.type = 0x809 ∧ e.type = 0x0A ∧ Balanced inner

/-- The position of group `i` in the stream. -/
def position (groups : List (List Record)) (i : Nat) : Nat := (stream (groups.take i).flatten).length

/-- A sheet entry of the workbook. -/
structure SheetEntry where
  position : Nat
  state : UInt8
  type : UInt8
  flags : UInt8
  name : List Nat

/-- The visibility is stored in two bits: 0 visible, 1 hidden, 2 very hidden. -/
def SheetEntry.visible (e : SheetEntry) : Bool := e.state.toNat % 4 = 0

/-- Entries that can be written. -/
structure SheetEntry.Ok (e : SheetEntry) : Prop where
  position : e.position < 2 ^ 32
  scalar : ∀ r ∈ e.name, Scalar r
  fits : Fits (bit e.flags 0) (e.name.flatMap units)
  length : (e.name.flatMap units).length < 256

/-- The data of a BoundSheet8 record. -/
def SheetEntry.data (e : SheetEntry) : Bytes :=
  leBytes 4 e.position ++ e.state :: e.type :: xlString 1 (bit e.flags 0) e.flags (e.name.flatMap units)

/-! ### The contents of the workbook globals -/

/-- What the records of a workbook say: sheet entries, date mode, shared strings, number formats and the number
format of each cell style. -/
structure Content where
  sheets : List SheetEntry
  dateMode : Nat
  strings : List (List Nat)
  formats : List (Nat × List Nat)
  styles : List Nat

/-- The data of a BOF record of a supported version (2.4.21). -/
def bofData (dt build year : Nat) (tail : Bytes) : Bytes :=
  leBytes 2 0x0600 ++ leBytes 2 dt ++ leBytes 2 build ++ leBytes 2 year ++ tail

/-- The record types that say something about the workbook: SST, BOF, CodePage, Date1904, Format, XF,
BoundSheet8. -/
def telling (t : Nat) : Prop := t = 252 ∨ t = 0x809 ∨ t = 66 ∨ t = 34 ∨ t = 1054 ∨ t = 224 ∨ t = 0x85

/-- The records of a substream add to the content (`c` before, `c'` after). -/
inductive Globals : Content → List Record → Content → Prop
  | nil (c : Content) : Globals c [] c
  | skip (c c' : Content) (r : Record) (rs : List Record) : r.data = [] ∨ ¬ telling r.type → Globals c rs c' →
      Globals c (r :: rs) c'
  | bof (c c' : Content) (dt build year : Nat) (tail : Bytes) (rs : List Record) : 8 ≤ tail.length →
      year = 0x07CC ∨ year = 0x07CD → Globals c rs c' → Globals c (⟨0x809, bofData dt build year tail⟩ :: rs) c'
  | codePage (c c' : Content) (data : Bytes) (rs : List Record) : 2 ≤ data.length → Globals c rs c' →
      Globals c (⟨66, data⟩ :: rs) c'
  | dateMode (c c' : Content) (m : Nat) (tail : Bytes) (rs : List Record) : m < 65536 →
      Globals { c with dateMode := m } rs c' → Globals c (⟨34, leBytes 2 m ++ tail⟩ :: rs) c'
  | format (c c' : Content) (no : Nat) (flags : UInt8) (code : List Nat) (tail : Bytes) (rs : List Record) :
      no < 65536 → (∀ x ∈ code, Scalar x) → Fits (bit flags 0) (code.flatMap units) →
      (code.flatMap units).length < 65536 →
      Globals { c with formats := c.formats ++ [(no, code)] } rs c' →
      Globals c (⟨1054, leBytes 2 no ++ (xlString 2 (bit flags 0) flags (code.flatMap units) ++ tail)⟩ :: rs) c'
  | style (c c' : Content) (font no : Nat) (tail : Bytes) (rs : List Record) : no < 65536 →
      Globals { c with styles := c.styles ++ [no] } rs c' →
      Globals c (⟨224, leBytes 2 font ++ (leBytes 2 no ++ tail)⟩ :: rs) c'
  | sheet (c c' : Content) (e : SheetEntry) (rs : List Record) : e.Ok →
      Globals { c with sheets := c.sheets ++ [e] } rs c' → Globals c (⟨0x85, e.data⟩ :: rs) c'
  | strings (c c' : Content) (counts : Bytes) (ss : List SstString) (texts : List (List Nat)) (first : Bytes)
      (more : List Bytes) (rs : List Record) : counts.length = 8 → (∀ s ∈ ss, s.Ok) → (∀ s ∈ ss, NoLoneByte s) →
      (∀ t ∈ texts, ∀ r ∈ t, Scalar r) → ss.map SstString.units = texts.map (fun t => t.flatMap units) →
      sstRecords counts ss = first :: more → (∀ r, rs.head? = some r → r.type ≠ 0x3C) →
      Globals { c with strings := texts } rs c' →
      Globals c (⟨252, first⟩ :: (more.map (fun d => ⟨0x3C, d⟩) ++ rs)) c'

/-- The substreams of a workbook add to the content one after another. -/
inductive AllGlobals : Content → List (List Record) → Content → Prop
  | nil (c : Content) : AllGlobals c [] c
  | cons (c c1 c2 : Content) (g : List Record) (gs : List (List Record)) : Globals c g c1 → AllGlobals c1 gs c2 →
      AllGlobals c (g :: gs) c2

/-- A workbook without content. -/
def Content.empty : Content := ⟨[], 0, [], [], []⟩

end Grate.Spec
