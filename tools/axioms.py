#!/usr/bin/env python3
"""Print the axioms of every theorem named in MANIFEST.json into AXIOMS.md (run after `lake build`)."""
import json, os, subprocess, re, tempfile
here = os.path.dirname(os.path.dirname(os.path.abspath(__file__)))
claims = json.load(open(os.path.join(here, "MANIFEST.json")))["claims"]
names = [(c["property"], t) for c in claims for t in c["theorems"]]
src = "import Verif\n" + "".join(f"#print axioms {t}\n" for _, t in names)
p = os.path.join(tempfile.mkdtemp(), "Ax.lean")
open(p, "w").write(src)
out = subprocess.run(["lake", "env", "lean", p], cwd=os.path.join(here, "lean"), capture_output=True, text=True).stdout
out = re.sub(r",\s*\n\s*", ", ", out)
ax = {}
for m in re.finditer(r"'([^']+)' (does not depend on any axioms|depends on axioms: \[([^\]]*)\])", out):
    ax[m.group(1)] = "none" if m.group(3) is None else ", ".join(x.strip() for x in m.group(3).split(","))
allowed = {"propext", "Classical.choice", "Quot.sound"}
with open(os.path.join(here, "AXIOMS.md"), "w") as f:
    f.write("# Axioms of every claimed theorem (generated by tools/axioms.py)\n\n")
    last = None
    for c, t in names:
        if c != last: f.write(f"\n## {c}\n\n"); last = c
        a = ax.get(t, "MISSING")
        f.write(f"* `{t}`: {a}\n")
        if a == "MISSING" or (a != "none" and not set(a.split(", ")) <= allowed): print("BAD", t, a)
print(len(names), "theorems")
