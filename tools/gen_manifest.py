#!/usr/bin/env python3
"""Write MANIFEST.json from the property theorems found in lean/Verif/Props.

A theorem `Cnn_*` belongs to property Cnn.  A property with a theorem named *_partial or *_violated
(at any place of the name) is `partial`, otherwise `proved`.  NOTES gives the notes, OVERRIDE other statuses.
"""
import json, os, re
ROOT = os.path.dirname(os.path.dirname(os.path.abspath(__file__)))
NOTES = json.load(open(os.path.join(ROOT, "tools", "notes.json")))
props = [json.loads(l) for l in open(os.path.join(ROOT, "properties.jsonl"))]
thms = {p["id"]: [] for p in props}
for d, _, fs in os.walk(os.path.join(ROOT, "lean", "Verif", "Props")):
    for f in sorted(fs):
        ns = []
        for line in open(os.path.join(d, f)):
            m = re.match(r"namespace (\S+)", line)
            if m: ns.append(m.group(1))
            m = re.match(r"end (\S+)", line)
            if m and ns and ns[-1] == m.group(1): ns.pop()
            m = re.match(r"(?:protected |private )?theorem (C\d\d+)(_\S+)", line)
            if m:
                thms.setdefault(m.group(1), []).append(".".join(ns + [m.group(1) + m.group(2)]))
claims = []
for p in props:
    i = p["id"]
    t = thms[i]
    if not t and i not in NOTES: 
        print("no theorem for", i); continue
    note = NOTES.get(i, "")
    status = None
    if isinstance(note, dict):
        status, note = note["status"], note["note"]
    if status is None:
        status = "partial" if any("_partial" in x or "_violated" in x for x in t) else "proved"
    claims.append({"property": i, "status": status, "theorems": t, "note": note})
json.dump({"claims": claims}, open(os.path.join(ROOT, "MANIFEST.json"), "w"), indent=1)
print({s: sum(c["status"] == s for c in claims) for s in ("proved", "partial", "not_applicable")})
