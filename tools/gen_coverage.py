#!/usr/bin/env python3
"""Write section 5 of DESIGN.md: for every C function of the code base whether a definition of the model cites lines of it.

Functions are found by their closing brace in column 0.  The event senders (src/events) are translated by tools/gen_events.py, one table row each.
"""
import collections, glob, os, re
ROOT = os.path.dirname(os.path.dirname(os.path.abspath(__file__)))
ARM = "examples/arm/frdm-k64f/vscp_frdm_k64f"
FILES = sorted(glob.glob("/repo/src/*.c")) + sorted(glob.glob("/repo/examples/avr/at90can/**/*.c", recursive=True)) \
    + sorted(glob.glob(f"/repo/{ARM}/vscp_user/*.c") + glob.glob(f"/repo/{ARM}/common/*.c") + glob.glob(f"/repo/{ARM}/source/*.c"))
cites = collections.defaultdict(list)
for f in glob.glob(os.path.join(ROOT, "lean", "Verif", "Model", "*.lean")):
    for m in re.finditer(r"((?:src|examples)/[\w./-]+\.c):(\d+(?:-\d+)?(?:, \d+(?:-\d+)?)*)", open(f).read()):
        for r in m.group(2).split(", "):
            a, _, b = r.partition("-")
            cites[m.group(1)].append((int(a), int(b or a)))
EXCEPT = set()
SAME = {f"{ARM}/common/swTimer.c": "examples/avr/at90can/common/swTimer.c", f"{ARM}/vscp_user/vscp_timer.c": "examples/avr/at90can/vscp_user/vscp_timer.c"}
def functions(path):
    L = open(path, errors="replace").read().split("\n")
    out = []
    for i, l in enumerate(L):
        m = re.match(r"(?:extern |static |inline |const )*[\w ]+?[ \*]+(\w+)\s*\(", l) or re.match(r"ISR\((\w+)\)", l)
        if not m or l.rstrip().endswith(";") or l.startswith(("#", " ", "else", "if", "return", "typedef")): continue
        j = i
        while j < len(L) and not L[j].rstrip().endswith((";", "{")) and L[j] != "{": j += 1
        if j >= len(L) or L[j].rstrip().endswith(";"): continue
        k = j
        while k < len(L) and L[k].rstrip() != "}": k += 1
        out.append((m.group(1), i + 1, k + 1))
    return out
rows, total, done = [], 0, 0
for f in FILES:
    rel = f[len("/repo/"):]
    fs = functions(f)
    c = cites[rel] + cites.get(SAME.get(rel, ""), [])
    yes = [n for n, a, b in fs if n not in EXCEPT and any(a <= y and x <= b for x, y in c)]
    no = [n for n, a, b in fs if n not in yes]
    total += len(fs); done += len(yes)
    note = f" (identical to `{SAME[rel]}`)" if rel in SAME else ""
    rows.append(f"| `{rel}`{note} | {len(yes)} of {len(fs)} | {', '.join('`%s`' % n for n in no) or 'none'} |")
head, nxt = "### Coverage, function by function\n", "\n## 6."
body = head + f"""
Generated by `tools/gen_coverage.py` from the citations in `Verif/Model`.  {done} of {total} functions; in addition all 889 send functions of `src/events/*.c`
(`Verif/Model/EventTable.lean`, written by `tools/gen_events.py`).

| file | modelled | not modelled |
|---|---|---|
""" + "\n".join(rows) + "\n"
p = os.path.join(ROOT, "DESIGN.md")
s = open(p).read()
i = s.find(head)
j = s.find(nxt, i)
assert i >= 0 and j >= 0
open(p, "w").write(s[:i] + body + s[j:])
print(done, total)
