#!/usr/bin/env python3
"""Run the model of the zip reader (Model/GoZip.lean) on the xlsx files of the repository and compare the members it
lists, with their headers and the offsets of their data, with those of Python's zipfile.

A test of how faithful the model is, not a proof. Build lean/ first.
"""
import os, struct, subprocess, sys, tempfile, zipfile

HERE = os.path.dirname(os.path.abspath(__file__))
FILES = ["/repo/testdata/%s.xlsx" % n for n in ("basic", "basic2", "multi_test")]

LEAN = r'''
import Verif.Model.GoZip
open Grate Grate.Zip
def Z : ZipLib := ⟨fun _ => ([], .eof), fun _ => 0, fun _ _ d => .ok d, fun _ e => .ok e⟩
def main (args : List String) : IO Unit := do
  for f in args do
    let b := (← IO.FS.readBinFile f).toList
    match newReader Z b with
    | .error _ => IO.println "error"
    | .ok es =>
      for e in es do
        let off := match bodyOffset b e with | .ok o => s!"{o}" | .error _ => "error"
        IO.println s!"{String.fromUTF8! (ByteArray.mk e.name.toArray)} {e.method} {e.flags} {e.crc} {e.csize} {e.usize} {e.offset} {off}"
'''

want = []
for p in FILES:
    raw = open(p, "rb").read()
    for i in zipfile.ZipFile(p).infolist():
        n, x = struct.unpack("<HH", raw[i.header_offset + 26:i.header_offset + 30])
        want.append("%s %d %d %d %d %d %d %d" % (i.filename, i.compress_type, i.flag_bits, i.CRC, i.compress_size,
                                                 i.file_size, i.header_offset, i.header_offset + 30 + n + x))
with tempfile.TemporaryDirectory() as d:
    src = os.path.join(d, "zip.lean")
    open(src, "w").write(LEAN)
    out = subprocess.run(["lake", "env", "lean", "--run", src] + FILES, cwd=os.path.join(HERE, "..", "lean"),
                         capture_output=True, text=True, check=True).stdout
got = [l for l in out.split("\n") if l]
bad = [(w, g) for w, g in zip(want, got) if w != g]
for w, g in bad:
    print("differs: zipfile %s, model %s" % (w, g))
print("%d members, %d in the model, %d differ" % (len(want), len(got), len(bad)))
sys.exit(0 if len(want) == len(got) and not bad else 1)
