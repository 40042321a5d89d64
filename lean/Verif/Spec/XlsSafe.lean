import Verif.Spec.XlsSheet

/-! # Specification: damaged records that have enough bytes

Nothing is said here about the values in the records: rows, columns, styles, string numbers, error codes, versions, sizes of
sheets and regions can be anything. Only the bytes that a record announces have to be there. -/

namespace Grate.Spec

open Grate

/-! ### Hyperlinks -/

/-- A counted text at the beginning of `d`, with `rest` after it; the characters can be anything. -/
def TextAt (d rest : Bytes) : Prop :=
  ∃ n chars, n < 2 ^ 31 - 2 ∧ chars.length = 2 * n ∧ d = leBytes 4 n ++ (chars ++ rest)

/-- The class of a URL moniker. -/
def urlId : Bytes := [0xE0, 0xC9, 0xEA, 0x79, 0xF9, 0xBA, 0xCE, 0x11, 0x8C, 0x82, 0x00, 0xAA, 0x00, 0x4B, 0xA9, 0x0B]

/-- The class of a file moniker. -/
def fileId : Bytes := [0x03, 0x03, 0x00, 0x00, 0x00, 0x00, 0x00, 0x00, 0xC0, 0x00, 0x00, 0x00, 0x00, 0x00, 0x00, 0x46]

/-- A moniker of a known class at the beginning of `d`, with `rest` after it. -/
inductive MonikerAt : Bytes → Bytes → Prop
  | url (n : Nat) (chars rest : Bytes) : n < 2 ^ 32 → chars.length = n / 2 * 2 →
      MonikerAt (urlId ++ (leBytes 4 n ++ (chars ++ rest))) rest
  | file (anti : Bytes) (n : Nat) (path fixed rest : Bytes) : anti.length = 2 → n < 2 ^ 32 → path.length = n →
      fixed.length = 24 →
      MonikerAt (fileId ++ (anti ++ (leBytes 4 n ++ (path ++ (fixed ++ (leBytes 4 0 ++ rest)))))) rest
  | fileUni (anti : Bytes) (n m : Nat) (path fixed head chars rest : Bytes) : anti.length = 2 → n < 2 ^ 32 →
      path.length = n → fixed.length = 24 → 6 ≤ m → m < 2 ^ 32 → head.length = 6 → chars.length = (m - 6) / 2 * 2 →
      MonikerAt (fileId ++ (anti ++ (leBytes 4 n ++ (path ++ (fixed ++ (leBytes 4 m ++ (head ++ (chars ++ rest)))))))) rest

/-- A part that is there if `on`. -/
def OptAt (on : Bool) (P : Bytes → Bytes → Prop) (d rest : Bytes) : Prop := if on then P d rest else d = rest

/-- A hyperlink object with the bytes it announces; one of an unknown version or with a moniker of an unknown class can go on
as it likes. -/
inductive HyperFits : Bytes → Prop
  | version (cls : Bytes) (v : Nat) (rest : Bytes) : cls.length = 16 → v < 2 ^ 32 → v ≠ 2 →
      HyperFits (cls ++ (leBytes 4 v ++ rest))
  | unknown (cls : Bytes) (flags : Nat) (d0 d1 : Bytes) (id rest : Bytes) : cls.length = 16 → flags < 2 ^ 32 →
      OptAt (flags.testBit 4) TextAt d0 d1 → OptAt (flags.testBit 7) TextAt d1 (id ++ rest) → flags.testBit 0 = true →
      flags.testBit 8 = false → id.length = 16 → id ≠ urlId → id ≠ fileId →
      HyperFits (cls ++ (leBytes 4 2 ++ (leBytes 4 flags ++ d0)))
  | object (cls : Bytes) (flags : Nat) (d0 d1 d2 d3 d4 : Bytes) : cls.length = 16 → flags < 2 ^ 32 →
      OptAt (flags.testBit 4) TextAt d0 d1 → OptAt (flags.testBit 7) TextAt d1 d2 →
      OptAt (flags.testBit 0) (fun d r => if flags.testBit 8 then TextAt d r else MonikerAt d r) d2 d3 →
      OptAt (flags.testBit 3) TextAt d3 d4 → HyperFits (cls ++ (leBytes 4 2 ++ (leBytes 4 flags ++ d0)))

/-! ### Records of worksheets -/

/-- A record of a worksheet other than Formula and String with the bytes it announces. A LabelSst record must not select the
string after the last of the `strings` many (see `C53_counterexample`); any other number will do. -/
structure RecFits (strings : Nat) (r : Record) : Prop where
  wsBool : r.type = 129 → 2 ≤ r.data.length
  dimensions : r.type = 512 → 12 ≤ r.data.length
  boolErr : r.type = 517 → 8 ≤ r.data.length
  mulRk : r.type = 189 → 6 ≤ r.data.length
  number : r.type = 515 → 14 ≤ r.data.length
  rk : r.type = 638 → 10 ≤ r.data.length
  label : r.type = 253 → ∃ head i tail, head.length = 6 ∧ i < 2 ^ 32 ∧ i ≠ strings ∧
    r.data = head ++ (leBytes 4 i ++ tail)
  merge : r.type = 229 → ∃ n regions tail, n < 65536 ∧ regions.length = 8 * n ∧
    r.data = leBytes 2 n ++ (regions ++ tail)
  hlink : r.type = 440 → ∃ region link, region.length = 8 ∧ r.data = region ++ link ∧ HyperFits link

/-- A Continue record of a String record. -/
def ContFits (r : Record) : Prop := 1 ≤ r.data.length ∧ r.data.length ≤ 16448

/-- A String record: the count, the flags, and, if the characters are wide, as many of them. -/
def StringFits (d : Bytes) : Prop :=
  ∃ n flags chars, n < 65536 ∧ d = leBytes 2 n ++ flags :: chars ∧ (bit flags 0 = true → 2 * n ≤ chars.length)

/-- The result of a Formula record is a number or one of the kinds text, boolean and error. -/
def KnownResult (d : Bytes) : Prop := ¬ (d[12]? = some 0xFF ∧ d[13]? = some 0xFF) ∨
  d[6]? = some 0 ∨ d[6]? = some 1 ∨ d[6]? = some 2

/-- The records of a worksheet (after its BOF), in any order, with embedded blocks. `ready` tells that the last formula has a
known kind of result, as it must be for a String record (see `C53_string_counterexample`). -/
inductive SafeSheet (strings : Nat) : Bool → List Record → Prop
  | nil (ready : Bool) : SafeSheet strings ready []
  | block (ready : Bool) (b e : Record) (inner rs : List Record) : b.type = 0x809 → e.type = 0x0A →
      (∀ r ∈ inner, r.type ≠ 0x0A) → SafeSheet strings ready rs → SafeSheet strings ready (b :: (inner ++ e :: rs))
  /-- a block without an end -/
  | open_ (ready : Bool) (b : Record) (inner : List Record) : b.type = 0x809 → (∀ r ∈ inner, r.type ≠ 0x0A) →
      SafeSheet strings ready (b :: inner)
  | plain (ready : Bool) (r : Record) (rs : List Record) : r.type ≠ 0x809 → r.type ≠ 6 → r.type ≠ 519 →
      RecFits strings r → SafeSheet strings ready rs → SafeSheet strings ready (r :: rs)
  | formula (ready : Bool) (r : Record) (rs : List Record) : r.type = 6 → 14 ≤ r.data.length → KnownResult r.data →
      SafeSheet strings true rs → SafeSheet strings ready (r :: rs)
  | formulaOther (ready : Bool) (r : Record) (rs : List Record) : r.type = 6 → 14 ≤ r.data.length →
      SafeSheet strings false rs → SafeSheet strings ready (r :: rs)
  | text (r : Record) (rs : List Record) : r.type = 519 → StringFits r.data →
      (∀ c ∈ rs.takeWhile (fun c => c.type = 0x3C), ContFits c) → SafeSheet strings true rs →
      SafeSheet strings true (r :: rs)

/-! ### Records about the workbook -/

/-- A string with a count of `k` bytes and at least the characters it announces. -/
def CountedText (k : Nat) (d : Bytes) : Prop :=
  ∃ n flags chars, n < 256 ^ k ∧ d = leBytes k n ++ flags :: chars ∧
    (if bit flags 0 then 2 * n else n) ≤ chars.length

/-- The records of a substream as the workbook reads them: `k` shared strings before, `k'` after. -/
inductive SafeGlobals : Nat → List Record → Nat → Prop
  | nil (k : Nat) : SafeGlobals k [] k
  | skip (k k' : Nat) (r : Record) (rs : List Record) : r.data = [] ∨ ¬ telling r.type → SafeGlobals k rs k' →
      SafeGlobals k (r :: rs) k'
  | bof (k k' : Nat) (r : Record) (rs : List Record) : r.type = 0x809 → 16 ≤ r.data.length → SafeGlobals k rs k' →
      SafeGlobals k (r :: rs) k'
  | setting (k k' : Nat) (r : Record) (rs : List Record) : r.type = 66 ∨ r.type = 34 → 2 ≤ r.data.length →
      SafeGlobals k rs k' → SafeGlobals k (r :: rs) k'
  | format (k k' : Nat) (r : Record) (no code : Bytes) (rs : List Record) : r.type = 1054 → no.length = 2 →
      r.data = no ++ code → CountedText 2 code → SafeGlobals k rs k' → SafeGlobals k (r :: rs) k'
  | style (k k' : Nat) (r : Record) (rs : List Record) : r.type = 224 → 4 ≤ r.data.length → SafeGlobals k rs k' →
      SafeGlobals k (r :: rs) k'
  | sheet (k k' : Nat) (r : Record) (head name : Bytes) (rs : List Record) : r.type = 0x85 → head.length = 6 →
      r.data = head ++ name → CountedText 1 name → SafeGlobals k rs k' → SafeGlobals k (r :: rs) k'
  /-- a shared string table; the characters can be anything -/
  | strings (k k' : Nat) (counts : Bytes) (ss : List SstString) (first : Bytes) (more : List Bytes) (rs : List Record) :
      counts.length = 8 → (∀ s ∈ ss, s.Ok) → (∀ s ∈ ss, NoLoneByte s) → sstRecords counts ss = first :: more →
      (∀ r, rs.head? = some r → r.type ≠ 0x3C) → SafeGlobals ss.length rs k' →
      SafeGlobals k (⟨252, first⟩ :: (more.map (fun d => ⟨0x3C, d⟩) ++ rs)) k'

/-- The substreams of a workbook, one after another. -/
inductive AllSafe : Nat → List (List Record) → Nat → Prop
  | nil (k : Nat) : AllSafe k [] k
  | cons (k k1 k2 : Nat) (g : List Record) (gs : List (List Record)) : SafeGlobals k g k1 → AllSafe k1 gs k2 →
      AllSafe k (g :: gs) k2

end Grate.Spec
