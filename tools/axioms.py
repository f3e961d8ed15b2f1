#!/usr/bin/env python3
"""Writes AXIOMS.md: the axioms every theorem of MANIFEST.json depends on, as Lean reports them (needs a finished build)."""
import json, os, re, subprocess, tempfile
root = os.path.dirname(os.path.dirname(os.path.abspath(__file__)))
claims = json.load(open(root + "/MANIFEST.json"))["claims"]
names = [t for c in claims for t in c["theorems"]]
with tempfile.NamedTemporaryFile("w", suffix=".lean", delete=False) as f:
    f.write("import Verif\n" + "\n".join(f"#print axioms {n}" for n in names) + "\n")
out = subprocess.run(["lake", "env", "lean", f.name], cwd=root + "/lean", capture_output=True, text=True).stdout
ax = {}
for m in re.finditer(r"'(\S+)' (?:depends on axioms: \[([^\]]*)\]|does not depend on any axioms)", out):
    ax[m.group(1)] = sorted(a.strip() for a in (m.group(2) or "").split(",") if a.strip())
missing = [n for n in names if n not in ax]
assert not missing, missing
with open(root + "/AXIOMS.md", "w") as f:
    f.write("# Axioms per theorem\n\nGenerated by `tools/axioms.py` with `#print axioms`.\n\n| property | theorem | axioms |\n|---|---|---|\n")
    for c in claims:
        for t in c["theorems"]:
            f.write(f"| {c['property']} | `{t}` | {', '.join(ax[t]) or 'none'} |\n")
print(sorted({a for l in ax.values() for a in l}))
