#!/usr/bin/env python3
"""Replace section 7 of DESIGN.md by the axioms of every theorem of MANIFEST.json, as printed by Lean (`#print axioms`).

Needs a finished `lake build`.
"""
import json, os, re, subprocess, sys, tempfile
ROOT = os.path.dirname(os.path.dirname(os.path.abspath(__file__)))
claims = json.load(open(os.path.join(ROOT, "MANIFEST.json")))["claims"]
names = [t for c in claims for t in c["theorems"]]
with tempfile.NamedTemporaryFile("w", suffix=".lean", delete=False) as f:
    f.write("import Verif\n" + "".join(f"#print axioms {n}\n" for n in names))
out = subprocess.run(["lake", "env", "lean", f.name], cwd=os.path.join(ROOT, "lean"), capture_output=True, text=True)
os.unlink(f.name)
if out.returncode:
    sys.exit(out.stdout + out.stderr)
ax = {}
for m in re.finditer(r"'([^']+)' (does not depend on any axioms|depends on axioms: \[([^\]]*)\])", out.stdout):
    ax[m.group(1)] = [a.strip() for a in (m.group(3) or "").split(",") if a.strip()]
missing = [n for n in names if n not in ax]
assert not missing, missing
allowed = {"propext", "Classical.choice", "Quot.sound"}
assert all(set(a) <= allowed for a in ax.values())
short = {"propext": "P", "Classical.choice": "C", "Quot.sound": "Q"}
rows = []
for c in claims:
    cells = []
    for t in c["theorems"]:
        a = "".join(short[x] for x in sorted(ax[t], key=list(short).index)) or "none"
        cells.append(f"`{t.split('.')[-1]}` {a}")
    rows.append(f"| {c['property']} | {c['status']} | {', '.join(cells)} |")
head = "## 7. Axioms per theorem\n"
body = head + f"""
Printed by Lean (`#print axioms`, `tools/gen_axioms.py`) for each of the {len(names)} theorems of MANIFEST.json.
P = `propext`, C = `Classical.choice`, Q = `Quot.sound`; no theorem depends on any other axiom.

| property | status | theorems and their axioms |
|---|---|---|
""" + "\n".join(rows) + "\n"
p = os.path.join(ROOT, "DESIGN.md")
s = open(p).read()
i = s.find(head)
s = (s if i < 0 else s[:i]).rstrip() + "\n\n" + body
open(p, "w").write(s)
print(len(names), "theorems")
