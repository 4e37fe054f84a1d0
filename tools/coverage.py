#!/usr/bin/env python3
"""List the Go functions of /repo (without tests and examples) that no citation in the Lean sources touches.
Files read by tools/extract.py (message files) count as covered.  Functions named in a citation of a whole file do too."""
import re, glob, os, sys
files = {}
for f in glob.glob('/repo/**/*.go', recursive=True):
    g = f[6:]
    if g.endswith('_test.go') or g.startswith('examples/'): continue
    files[g] = open(f).read().split('\n')
cov = {f: set() for f in files}
for lf in sorted(glob.glob('/verif/lean/Verif/**/*.lean', recursive=True)):
    s = open(lf).read(); base = os.path.basename(lf)
    ctx = 'gtpv1' if base[:2] in ('V1', 'UC', 'UR') else 'gtpv0' if base[:2] == 'V0' else 'gtpv2' if base[:2] == 'V2' or '/Typed/' in lf else ''
    for m in re.finditer(r'([\w./-]+\.go)((?::\d+(?:-\d+)?)(?:,? (?:and )?\d+(?:-\d+)?)*)?', s):
        name, ranges = m.groups()
        c = [f for f in files if f == name or f.endswith('/' + name)]
        if len(c) > 1:
            d = [f for f in c if ctx and f.startswith(ctx)]
            if d: c = d
        for f in c:
            for r in re.finditer(r'(\d+)(?:-(\d+))?', ranges or ''):
                a = int(r.group(1)); b = int(r.group(2) or a)
                cov[f].update(range(a, b + 1))
tot = miss = 0
for f in sorted(files):
    L = files[f]
    i = 0
    while i < len(L):
        m = re.match(r'func (?:\((\w+) \*?(\w+)\) )?(\w+)', L[i])
        if m:
            j = i
            if not L[i].rstrip().endswith('}') or L[i].rstrip().endswith('{'):
                while j < len(L) and L[j] != '}': j += 1
            tot += 1
            if not any(k in cov[f] for k in range(i + 1, j + 2)):
                miss += 1
                print('%s:%d %s%s' % (f, i + 1, (m.group(2) + '.') if m.group(2) else '', m.group(3)))
            i = j
        i += 1
print(tot, 'functions,', miss, 'not cited', file=sys.stderr)
