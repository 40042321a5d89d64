import Verif.Model.XlsxRefs

/-! # Model of `/repo/cmd/grate2tsv/main.go`: `processFile` (lines 161-266)

The workers around it are in `Verif.Model.Workers`. The opened source is represented by the outcomes
of the interface calls `List`, `Get`, `IsEmpty` and of the loop over `Next`/`Strings`; `defer
wb.Close()`, `os.MkdirAll` and the calls of the `log` package have no effect that is modelled. -/

namespace Grate.G2t

open Grate

/-- The flags used by `processFile` with their defaults, `main.go:36-40`. -/
structure Flags where
  pretend : Bool := false
  removeNewlines : Bool := true
  trimSpaces : Bool := true
  skipBlanks : Bool := true

/-! ### Library functions -/

/-- `ReplaceAllString(s, rep)` of a regular expression `[class]+` whose class is a set of bytes
(standard library): every maximal run of bytes of the class is replaced by `rep`.
`inRun` tells that the previous byte belonged to a run already replaced. -/
def collapse (cls : UInt8 → Bool) (rep : Bytes) : Bool → Bytes → Bytes
  | _, [] => []
  | inRun, b :: s =>
    if cls b then (if inRun then [] else rep) ++ collapse cls rep true s
    else b :: collapse cls rep false s

/-- The class of `newlines`, `main.go:163`: ``[ \n\r\t]``. -/
def blankClass (b : UInt8) : Bool := b == 32 || b == 10 || b == 13 || b == 9

/-- The class of `sanitize`, `main.go:162`: `[^a-zA-Z0-9]`. Bytes of multi-byte runes and bytes that
are not valid UTF-8 (read as U+FFFD) all belong to it. -/
def otherClass (b : UInt8) : Bool :=
  !((97 ≤ b && b ≤ 122) || (65 ≤ b && b ≤ 90) || (48 ≤ b && b ≤ 57))

/-- The UTF-8 encodings of the runes for which `unicode.IsSpace` holds (standard library): TAB, LF, VT,
FF, CR, space, U+0085, U+00A0, U+1680, U+2000..U+200A, U+2028, U+2029, U+202F, U+205F, U+3000. -/
def spaceRunes : List Bytes :=
  [[9], [10], [11], [12], [13], [32], [0xC2, 0x85], [0xC2, 0xA0], [0xE1, 0x9A, 0x80],
   [0xE2, 0x80, 0x80], [0xE2, 0x80, 0x81], [0xE2, 0x80, 0x82], [0xE2, 0x80, 0x83],
   [0xE2, 0x80, 0x84], [0xE2, 0x80, 0x85], [0xE2, 0x80, 0x86], [0xE2, 0x80, 0x87],
   [0xE2, 0x80, 0x88], [0xE2, 0x80, 0x89], [0xE2, 0x80, 0x8A], [0xE2, 0x80, 0xA8],
   [0xE2, 0x80, 0xA9], [0xE2, 0x80, 0xAF], [0xE2, 0x81, 0x9F], [0xE3, 0x80, 0x80]]

/-- Drops encodings out of `toks` from the front as long as there is one; the fuel is the length. -/
def stripFront (toks : List Bytes) : Nat → Bytes → Bytes
  | 0, s => s
  | n + 1, s =>
    match toks.find? (fun t => t.isPrefixOf s) with
    | some t => stripFront toks n (s.drop t.length)
    | none => s

/-- `strings.TrimSpace` (standard library): white space runes are removed from the front and, decoding
backwards, from the end. -/
def trimSpace (s : Bytes) : Bytes :=
  let a := stripFront spaceRunes s.length s
  (stripFront (spaceRunes.map List.reverse) a.length a.reverse).reverse

/-- `filepath.Ext` (standard library): from the last dot after the last slash, or nothing. -/
def extOf (p : Bytes) : Bytes :=
  let tail := (p.reverse.takeWhile (fun b => b != 46 && b != 47)).reverse
  match p.reverse.dropWhile (fun b => b != 46 && b != 47) with
  | 46 :: _ => 46 :: tail
  | _ => []

/-! ### One sheet -/

/-- The cell loop, `main.go:234-248`: the row as it will be written, whether it is non-blank, and
`ps.NumCols`. `i` is the loop index. -/
def rowLoop (fl : Flags) : (i : Nat) → (numCols : Nat) → List Bytes → List Bytes × Bool × Nat
  | _, nc, [] => ([], false, nc)
  | i, nc, v :: vs =>
    let x := if fl.removeNewlines then collapse blankClass [32] false v else v
    let x := if fl.trimSpaces then trimSpace x else x
    let w := if fl.trimSpaces then x else v
    let nc := if x ≠ [] then (if nc < i then i else nc) else nc
    let r := rowLoop fl (i + 1) nc vs
    (w :: r.1, decide (x ≠ []) || r.2.1, r.2.2)

/-- The writes of one row, `main.go:250-255`. `i` is the loop index. -/
def cellWrites : (i : Nat) → List Bytes → Bytes
  | _, [] => []
  | i, v :: vs => (if i ≠ 0 then [9] else []) ++ v ++ cellWrites (i + 1) vs

/-- What a sheet adds to the statistics: `NumRows`, `NumCols`. -/
structure Counts where
  numRows : Nat
  numCols : Nat
deriving DecidableEq

/-- The row loop, `main.go:231-259`, over the rows that `Next`/`Strings` deliver: the bytes written
to `w` and the counts. -/
def sheetLoop (fl : Flags) : Counts → List (List Bytes) → Bytes × Counts
  | ps, [] => ([], ps)
  | ps, row :: rows =>
    let r := rowLoop fl 0 ps.numCols row
    if r.2.1 || !fl.skipBlanks then
      let rest := sheetLoop fl ⟨ps.numRows + 1, r.2.2⟩ rows
      (cellWrites 0 r.1 ++ [10] ++ rest.1, rest.2)
    else sheetLoop fl ⟨ps.numRows, r.2.2⟩ rows

/-! ### One file -/

/-- What `Get` delivers: `IsEmpty` and the rows of the loop over `Next` and `Strings`. -/
structure Coll where
  isEmpty : Bool
  rows : List (List Bytes)

/-- An opened source: the outcomes of `List` and `Get`. -/
structure Book where
  list : GoRes (List Bytes)
  get : Bytes → GoRes Coll

/-- `stats`, `main.go:166-173` (without `Hash`, which is not printed). -/
structure Stats where
  filename : Bytes
  sheet : Bytes
  counts : Counts
  err : Option GoErr

/-- An output file: its path and everything written to it. -/
structure Out where
  path : Bytes
  content : Bytes
deriving DecidableEq

/-- `fn2`, `main.go:185-186`. -/
def stem (fn : Bytes) : Bytes := Simple.basePath (Xlsx.trimSuffix fn (extOf fn))

/-- `subdir`, `main.go:187-188`; `hex` is the hexadecimal MD5 sum. -/
def subdir (hex : Bytes → Bytes) (fn : Bytes) : Bytes :=
  let h := hex (stem fn)
  lit "results/" ++ h.take 2 ++ [47] ++ (h.drop 2).take 2

/-- The path of the output for a sheet, `main.go:214-221`. -/
def outPath (hex : Bytes → Bytes) (fn s : Bytes) : Bytes :=
  let s2 := collapse otherClass [95] false s
  let s2 := if s = fn then lit "main" else s2
  subdir hex fn ++ [47] ++ stem fn ++ [46] ++ s2 ++ lit ".tsv"

/-- The loop over the sheets, `main.go:196-264`: the outputs handed to `cleanup` so far, and the
result; a failing `os.Create` ends the loop with its error. `create` tells the outcome of `os.Create`. -/
def sheetsLoop (fl : Flags) (hex : Bytes → Bytes) (create : Bytes → Option GoErr) (fn : Bytes)
    (get : Bytes → GoRes Coll) : List Bytes → GoRes (List Out × (List Stats ⊕ GoErr))
  | [] => .ok ([], .inl [])
  | s :: ss =>
    match get s with
    | .panic => .panic
    | .err e => do
      let r ← sheetsLoop fl hex create fn get ss
      .ok (r.1, match r.2 with
        | .inl res => .inl (⟨fn, s, ⟨0, 0⟩, some e⟩ :: res)
        | .inr e' => .inr e')
    | .ok sheet =>
      if sheet.isEmpty then do
        let r ← sheetsLoop fl hex create fn get ss
        .ok (r.1, match r.2 with
          | .inl res => .inl (⟨fn, s, ⟨0, 0⟩, none⟩ :: res)
          | .inr e' => .inr e')
      else
        let body := sheetLoop fl ⟨0, 0⟩ sheet.rows
        if fl.pretend then do
          let r ← sheetsLoop fl hex create fn get ss
          .ok (r.1, match r.2 with
            | .inl res => .inl (⟨fn, s, body.2, none⟩ :: res)
            | .inr e' => .inr e')
        else
          match create (outPath hex fn s) with
          | some e => .ok ([], .inr e)
          | none => do
            let r ← sheetsLoop fl hex create fn get ss
            .ok (⟨outPath hex fn s, body.1⟩ :: r.1, match r.2 with
              | .inl res => .inl (⟨fn, s, body.2, none⟩ :: res)
              | .inr e' => .inr e')

/-- `processFile`, `main.go:175-266`; `wb` is the outcome of `grate.Open(fn)`. -/
def processFile (fl : Flags) (hex : Bytes → Bytes) (create : Bytes → Option GoErr) (fn : Bytes)
    (wb : GoRes Book) : GoRes (List Out × (List Stats ⊕ GoErr)) :=
  match wb with
  | .panic => .panic
  | .err e => .ok ([], .inr e)
  | .ok b =>
    match b.list with
    | .panic => .panic
    | .err e => .ok ([], .inr e)
    | .ok sheets => sheetsLoop fl hex create fn b.get sheets

/-- The columns of a line written by `runProcessor` after the time, `main.go:141-155`. -/
inductive LogLine where
  /-- `-`, `-`, `-` and the error that ended the file, line 143 -/
  | fatal (filename : Bytes) (e : GoErr)
  /-- the statistics of one sheet, lines 153-154 -/
  | sheet (s : Stats)

/-- The lines written for a file, `main.go:141-155`. -/
def logLines (fn : Bytes) : List Stats ⊕ GoErr → List LogLine
  | .inl res => res.map .sheet
  | .inr e => [.fatal fn e]

end Grate.G2t
