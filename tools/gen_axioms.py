"""Prints the axioms of every theorem named in MANIFEST.json into AXIOMS.md (run after `lake build`)."""
import json, os, re, subprocess, tempfile
root = os.path.dirname(os.path.dirname(os.path.abspath(__file__)))
claims = json.load(open(f"{root}/MANIFEST.json"))["claims"]
names = [(c["property"], t) for c in claims for t in c["theorems"]]
src = "import Verif\n" + "".join(f"#print axioms {t}\n" for _, t in names)
with tempfile.NamedTemporaryFile("w", suffix=".lean", delete=False) as f:
    f.write(src)
out = subprocess.run(["lake", "env", "lean", f.name], cwd=f"{root}/lean", capture_output=True, text=True).stdout
os.unlink(f.name)
ax = {}
for m in re.finditer(r"'([^']+)' (?:depends on axioms: \[([^\]]*)\]|does not depend on any axioms)", out):
    ax[m.group(1)] = [a.strip() for a in m.group(2).split(",")] if m.group(2) else []
with open(f"{root}/AXIOMS.md", "w") as f:
    f.write("# Axioms of the theorems in MANIFEST.json\n\nOutput of `#print axioms`, by `tools/gen_axioms.py`.\n\n| property | theorem | axioms |\n|---|---|---|\n")
    for p, t in names:
        f.write(f"| {p} | `{t}` | {', '.join(ax[t]) or 'none'} |\n")
print(len(names), sorted({a for v in ax.values() for a in v}))
