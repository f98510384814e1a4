#!/usr/bin/env python3
"""Transfer the results of tools/automutate.py (results.jsonl) to seeded/LOG.jsonl.

usage: log_auto.py RESULTS.jsonl DEPS.tsv ROUND
DEPS.tsv: one line per theorem of MANIFEST.json and definition its statement depends on.  The claim is the property whose theorem failed; if what failed is a
lemma, the most specific property (the one with the fewest definitions) whose statement depends on the edited definition.  Lines which are logged already are skipped; mutants which do not compile are left out.
"""
import collections, json, os, re, sys
ROOT = os.path.dirname(os.path.dirname(os.path.abspath(__file__)))
res, deps, rnd = sys.argv[1:4]
uses = collections.defaultdict(set)
for l in open(deps):
    t, d = l.rstrip("\n").split("\t")
    uses[t].add(d)
prop = {}
for c in json.load(open(os.path.join(ROOT, "MANIFEST.json")))["claims"]:
    for t in c["theorems"]: prop[t] = c["property"]
byprop = collections.defaultdict(set)
for t, s in uses.items():
    if t in prop: byprop[prop[t]] |= s
titles = {p["id"]: p["title"] for p in map(json.loads, open(os.path.join(ROOT, "properties.jsonl")))}
def claim(defn, failed):
    p = pick(defn, failed)
    return f"{p}: {titles[p]}" if p else ""
def pick(defn, failed):
    for t in failed:
        m = re.match(r"C\d+(?=_|$)", t.split(".")[-1])
        if m and m.group() in titles: return m.group()
    cand = [(len(s), p) for p, s in byprop.items() if any(x == "Vscp." + defn or x.endswith("." + defn) for x in s)]
    return min(cand)[1] if cand else ""
out = os.path.join(ROOT, "seeded", "mutants", f"auto{rnd}.json")
old = json.load(open(out)) if os.path.exists(out) else []
seen = {m["k"] for m in old}
log = open(os.path.join(ROOT, "seeded", "LOG.jsonl"), "a")
NOTES = json.load(open(os.path.join(ROOT, "seeded", "mutants", "notes.json"))) if os.path.exists(os.path.join(ROOT, "seeded", "mutants", "notes.json")) else {}
n = 0
for l in open(res):
    m = json.loads(l)
    if m["k"] in seen: continue
    old.append({k: m[k] for k in ("k", "res", "failed", "file", "definition", "pos", "old", "new", "line", "text")})
    if m["res"] == "invalid": continue
    note = NOTES.get(f"{rnd}:{m['k']}", {})
    e = {"definition": m["definition"], "edit": f"{m['file']}, `{m['text']}`: `{m['old'].strip()}` replaced by `{m['new'].strip()}`",
         "claim": note.get("claim", claim(m["definition"], m["failed"])), "failed": m["failed"] or note.get("failed", []), "tightened": note.get("tightened", [])}
    if "note" in note: e["note"] = note["note"]
    log.write(json.dumps(e, ensure_ascii=False) + "\n"); n += 1
json.dump(old, open(out, "w"), indent=1, ensure_ascii=False)
print(n)
