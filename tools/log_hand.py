#!/usr/bin/env python3
"""Transfer the results of tools/automutate.py for hand written mutants (results.jsonl) to seeded/LOG.jsonl.

usage: log_hand.py RESULTS.jsonl [NOTES.json]
NOTES.json: {"k": {"tightened": [...], "note": "..."}}.  Mutants which do not compile and those which are logged already are left out.
"""
import json, os, sys
ROOT = os.path.dirname(os.path.dirname(os.path.abspath(__file__)))
notes = json.load(open(sys.argv[2])) if len(sys.argv) > 2 else {}
path = os.path.join(ROOT, "seeded", "LOG.jsonl")
seen = {(d["definition"], d["edit"]) for d in map(json.loads, open(path))}
n = 0
with open(path, "a") as log:
    for m in map(json.loads, open(sys.argv[1])):
        if m["res"] == "invalid" or (m["definition"], m["edit"]) in seen: continue
        note = notes.get(str(m["k"]), {})
        e = {"definition": m["definition"], "edit": m["edit"], "claim": m["claim"], "failed": m["failed"], "tightened": note.get("tightened", [])}
        if "note" in note: e["note"] = note["note"]
        log.write(json.dumps(e, ensure_ascii=False) + "\n"); n += 1
print(n)
