#!/usr/bin/env python3
"""Checks the line ranges cited in the model: every "src/f.c:a-b `fn`" must be the extent of fn in /repo."""
import re, glob, os
bad = 0; n = 0
for f in sorted(glob.glob('/verif/lean/Verif/**/*.lean', recursive=True)):
    txt = open(f).read()
    for m in re.finditer(r'((?:src|examples|test|templates)/[\w./-]+\.[ch]):(\d+)-(\d+)\s+`(\w+)`', txt):
        path, a, b, name = m.group(1), int(m.group(2)), int(m.group(3)), m.group(4)
        L = open('/repo/' + path, errors='replace').read().split('\n')
        n += 1
        ok = False
        seg = L[a-1:b]
        if name.startswith('vscp') or True:
            if seg and re.search(r'\b' + name + r'\b', seg[0]) and seg[-1].strip() == '}': ok = True
            if seg and seg[0].startswith('typedef') and name in seg[-1]: ok = True
            if seg and any(re.search(r'#define\s+' + name, s) for s in seg): ok = True
        if not ok:
            bad += 1
            cand = [i+1 for i, l in enumerate(L) if re.search(r'\b' + name + r'\b', l)]
            print(f'{f}: {path}:{a}-{b} {name} -> candidates {cand[:6]}')
print(n, 'citations checked,', bad, 'wrong')
