#!/usr/bin/env python3
"""Writes AXIOMS.md: the axioms each theorem of MANIFEST.json depends on, as printed by Lean (#print axioms).
Needs a finished `lake build` in lean/."""
import json, re, subprocess
names = []
for c in json.load(open('/verif/MANIFEST.json'))['claims']:
    for t in c['theorems']:
        if t not in names: names.append(t)
open('/tmp/axioms.lean', 'w').write('import Verif\n' + ''.join('#print axioms %s\n' % n for n in names))
r = subprocess.run(['lake', 'env', 'lean', '/tmp/axioms.lean'], cwd='/verif/lean', capture_output=True, text=True)
out = (r.stdout + r.stderr).replace('\n', ' ')
g = {}
for n in names:
    x = re.search(r"'%s' (?:depends on axioms: \[([^\]]*)\]|does not depend on any axioms)" % re.escape(n), out)
    assert x, n
    k = ', '.join(re.sub(r'\s+', '', a) for a in (x.group(1) or '').split(',')) or 'none'
    g.setdefault(k, []).append(n)
allowed = {'none', 'propext', 'Classical.choice', 'Quot.sound'}
for k in g: assert set(k.split(', ')) <= allowed, k
with open('/verif/AXIOMS.md', 'w') as f:
    f.write('# Axioms of the property theorems\n\nWritten by tools/axioms.py from `#print axioms`; %d theorems.\n' % len(names))
    for k in sorted(g, key=len):
        f.write('\n## %s (%d)\n\n' % (k, len(g[k])) + ''.join('* `%s`\n' % n for n in g[k]))
