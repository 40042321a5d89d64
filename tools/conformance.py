#!/usr/bin/env python3
"""Run the model on the inputs of the repository's own tests and print where it differs from them.

This is a test of how faithful the model is, not a proof, and it does not run the Go code. The Lean
script is written to a temporary directory and run with `lake env lean --run` (build lean/ first).
What is simplified here: zip archives are unpacked by Python, the loop of `xmlTokens` around `rawToken`
is rewritten as a tail recursion, characters above 127 do not count as letters in XML names, library
functions that the model leaves open are filled in by the models of Model/Go*.lean.

Usage: tools/conformance.py [-v]      (-v also prints every row of every sheet)
"""
import os, re, subprocess, sys, tempfile, zipfile
from decimal import Decimal

HERE = os.path.dirname(os.path.abspath(__file__))
DATA = "/repo/testdata"
FILES = ["basic.xls", "testing.xls", "basic.xlsx", "basic2.xls", "basic2.xlsx", "multi_test.xls", "multi_test.xlsx"]

LEAN = r'''
import Verif.Model.Open
import Verif.Model.GoFloat
import Verif.Model.GoShort
import Verif.Model.GoParse
import Verif.Model.GoTime
import Verif.Model.GoCrypto
import Verif.Model.GoXml
open Grate

def ext : Ext where
  parseFloat s := (goParseFloat s).getD (0, some .syntax)
  floatF := goShortF
  floatG6 := goSix
  floatV := goShortG
  sprintfFloat fs x := (goSprintf fs x).getD (lit "?sprintf")
  sprintfInt fs _ := lit "?int" ++ fs
  timeFormat l t := goFormat l t
  timeString t := goFormat (lit "2006-01-02 15:04:05 -0700 MST") t
  scanG s := match goParseFloat s with | some (x, none) => some x | _ => none
  scanD s := match parseInt 64 s with | (n, none) => some n | _ => none

def T : Xlsx.XmlTables := ⟨fun _ => false, fun _ => false, fun _ => none⟩

def str (b : Bytes) : String := String.fromUTF8! (ByteArray.mk b.toArray)

instance : Inhabited Xlsx.Part := ⟨⟨[], .eof⟩⟩
partial def toks (bs : Bytes) (acc : Array Xlsx.Tok) : Xlsx.Part :=
  match bs with
  | [] => ⟨acc.toList, .eof⟩
  | _ => match Xlsx.rawToken T .eof bs with
    | .error e => ⟨acc.toList, e⟩
    | .ok (ts, r) => toks r (acc ++ ts.toArray)

def showGo {α} (f : α → String) : GoRes α → String
  | .ok a => f a
  | .err e => s!"ERR {repr e.message}"
  | .panic => "PANIC"

partial def rows (s : Sheet) : IO Unit := do
  let (s, ok) := s.next
  if ok then
    IO.println ("  " ++ showGo (fun l => String.intercalate "|" (l.map str)) (s.strings ext) ++ "   :: " ++
      showGo (fun l => String.intercalate " " (l.map str)) s.types ++ " :: " ++
      showGo (fun l => String.intercalate " | " (l.map str)) s.formats)
    rows s

/-- TestBasic of the repository. -/
def testBasic (s : Sheet) (tsv : Bytes) : IO Unit := do
  match Simple.scanLines tsv with
  | .ok ls =>
    let mut xs : GoRes Sheet := .ok (Sheet.new s.fmtr)
    let mut r : Int := 0
    for l in ls do
      let mut c : Int := 0
      for v in splitByte 9 l do
        xs := do (← xs).put ext r c (.str v) 0
        c := c + 1
      r := r + 1
    match xs with
    | .ok t =>
      let mut bad := 0
      let mut n := 0
      let mut oob := 0
      let mut i : Int := 0
      for row in s.rows do
        let mut j : Int := 0
        for x in row do
          n := n + 1
          match t.cell? i j with
          | some y => match y.equal ext x with
            | .ok true => pure ()
            | .ok false => bad := bad + 1; IO.println s!"    differs at {i},{j}"
            | _ => bad := bad + 1; IO.println s!"    PANIC at {i},{j}"
          | none => oob := oob + 1; IO.println s!"    out of range {i},{j}"
          j := j + 1
        i := i + 1
      IO.println s!"  TestBasic: {n} cells, {bad} differ, {oob} outside"
    | _ => IO.println "  TestBasic: cannot load"
  | _ => IO.println "  TestBasic: no lines"


def pi : Float := Float.ofBits 0x400921FB54442D18

def check (what : String) (got : GoRes Bytes) (want : String) : IO Unit := do
  match got with
  | .ok b => unless str b = want do IO.println s!"  {what}: got {str b}, the test wants {want}"
  | _ => IO.println s!"  {what}: panic"

def commaTable : List (Val × String) :=
@COMMAS@

def fracTable : List (Float × String × Nat) :=
@FRACS@

def testTables : IO Unit := do
  IO.println "== TestCommas"
  for (v, s) in commaTable do
    check (match v with | .int n => s!"int {n}" | .float x => s!"float {x}" | _ => "") (addCommas (identFmt ext v)) s
  IO.println "== TestFractions"
  for (v, s, n) in fracTable do
    check s!"{v} {n}" (fracFmt ext n (.float v)) s
  IO.println "== TestBoolFormats"
  let f := (makeFormatter (lit "\"yes\";\"yes\";\"no\"")).1
  for v in [Val.bool false, .int 0, .float 0] do check "no" (f.eval ext false v) "no"
  for v in [Val.bool true, .int 99, .int (-4), .float 4, .float (-99)] do check "yes" (f.eval ext false v) "yes"

partial def readOnes (r : Grate.SliceReader) (acc : Bytes) : Bytes × Grate.SliceReader :=
  match r.read 1 with
  | .ok (b, r') => readOnes r' (acc ++ b)
  | _ => (acc, r)

def testSlices : List Bytes :=
  (List.range 5).map fun i => (List.range 10).map fun j => UInt8.ofNat (10 * i + j)

def testSliceReader : IO Unit := do
  IO.println "== TestSliceReader"
  let all := testSlices.flatten
  let r := Grate.SliceReader.mk' testSlices
  let (b, r) := readOnes r []
  unless b = all do IO.println "  first reading out of order"
  let seek (r : Grate.SliceReader) (o : Int) (w : Grate.SliceReader.Whence) : IO Grate.SliceReader := do
    match r.seek 1000 o w with
    | some (.ok (_, r)) => return r
    | _ => IO.println s!"  seek {o} failed"; return r
  let r ← seek r 0 .start
  let (b, r) := readOnes r []
  unless b = all do IO.println "  second reading out of order"
  let mut r := r
  for (o, w, e) in [((10 : Int), Grate.SliceReader.Whence.start, (10 : UInt8)), (35, .start, 35), (7, .current, 43), (-9, .current, 35)] do
    r ← seek r o w
    match r.read 1 with
    | .ok (b, r') =>
      unless b = [e] do IO.println s!"  unexpected element {b} (expected {e})"
      r := r'
    | _ => IO.println s!"  no element (expected {e})"

def read (p : String) : IO Bytes := do return (← IO.FS.readBinFile p).toList

def main (args : List String) : IO Unit := do
  testTables
  testSliceReader
  for a in args do
    IO.println s!"== {a}"
    let tsv ← read s!"/repo/testdata/{(a.splitOn ".").head!}.tsv"
    if a.endsWith ".xls" then
      let f ← read s!"/repo/testdata/{a}"
      match Xls.openFile GoCrypto.prims makeFormatter (List.replicate 600 0) 1000 (List.replicate 100 512) ⟨f, []⟩ with
      | none => IO.println "out of fuel"
      | some (.ok b) =>
        for n in b.list do
          IO.println s!" sheet {str n}"
          match b.get ext n with
          | .ok (some s) => rows s; testBasic s tsv
          | .ok none => IO.println "nil"
          | .err e => IO.println s!"ERR {repr e.message}"
          | .panic => IO.println "PANIC"
      | some (.err e) => IO.println s!"ERR {repr e.message}"
      | some .panic => IO.println "PANIC"
    else
      let d := s!"@DIR@/{(a.splitOn ".").head!}.parts"
      let names := ((← IO.FS.readFile (d ++ "/index")).splitOn "\n").filter (· ≠ "")
      let mut z : List (Bytes × Except GoErr Xlsx.Part) := []
      let mut k := 0
      for n in names do
        z := z ++ [(lit n, .ok (toks (← read s!"{d}/{k}") #[]))]
        k := k + 1
      match Xlsx.openFile makeFormatter id (.ok z) with
      | .ok doc =>
        for n in doc.list do
          IO.println s!" sheet {str n}"
          match doc.get ext z n with
          | .ok (d', i, none) =>
            match d'.sheets[i]? with
            | some ⟨_, _, some (s, _)⟩ => rows s; testBasic s tsv
            | _ => IO.println "?"
          | .ok (_, _, some e) => IO.println s!"ERR {repr e.message}"
          | .err e => IO.println s!"ERR {repr e.message}"
          | .panic => IO.println "PANIC"
      | .err e => IO.println s!"ERR {repr e.message}"
      | .panic => IO.println "PANIC"
'''


def commas():
    src = open("/repo/commonxl/fmt_test.go").read()
    rows = []
    for e, want in re.findall(r'\{(.*), "([^"]*)"\},', src[src.index("var commas"):src.index("func TestCommas")]):
        m = re.match(r"float64\((-?\d+)\)(?: \+ ([\d.]+))?$", e)
        if m:
            rows.append(f'(.float ({Decimal(m.group(1)) + Decimal(m.group(2) or 0)}), "{want}")')
        else:
            rows.append('(.int (%s), "%s")' % (re.search(r"-?\d+(?=\)?$)", e).group(0), want))
    return "  [" + ",\n   ".join(rows) + "]"


def fracs():
    src = open("/repo/commonxl/frac_test.go").read()
    rows = re.findall(r'\{([^,{}]+), "([^"]*)", (\d)\}', src)
    return "  [" + ",\n   ".join(f'({x.replace("math.Pi", "pi")}, "{w}", {n})' for x, w, n in rows) + "]"


def main():
    with tempfile.TemporaryDirectory() as d:
        for f in FILES:
            if f.endswith(".xlsx"):
                p = os.path.join(d, f[:-5] + ".parts")
                os.mkdir(p)
                with zipfile.ZipFile(os.path.join(DATA, f)) as z:
                    names = z.namelist()
                    for i, n in enumerate(names):
                        open(os.path.join(p, str(i)), "wb").write(z.read(n))
                open(os.path.join(p, "index"), "w").write("\n".join(names) + "\n")
        text = LEAN.replace("@COMMAS@", commas()).replace("@FRACS@", fracs()).replace("@DIR@", d)
        run = os.path.join(d, "run.lean")
        open(run, "w").write(text)
        out = subprocess.run(["lake", "env", "lean", "--run", run] + FILES, cwd=os.path.join(HERE, "../lean"),
                             stdout=subprocess.PIPE, stderr=subprocess.STDOUT, text=True).stdout
    for line in out.splitlines():
        if "-v" in sys.argv or "::" not in line:
            print(line)


main()
