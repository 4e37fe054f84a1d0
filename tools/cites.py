#!/usr/bin/env python3
"""Check the citations in the model: `file.go:a-b` followed by a name in backquotes must be lines of a file under /repo in which
line a declares that name (or line a..b at least mentions it).  Prints the citations that do not fit."""
import re, glob, os
files = {}
for f in glob.glob('/repo/**/*.go', recursive=True): files[f[6:]] = open(f).read().split('\n')
def find(name, ctx):
    c = [f for f in files if f == name or f.endswith('/' + name)]
    if len(c) > 1:
        d = [f for f in c if ctx and f.startswith(ctx)]
        if d: c = d
    return c
n = bad = 0
for lf in sorted(glob.glob('/verif/lean/Verif/**/*.lean', recursive=True)):
    s = open(lf).read()
    base = os.path.basename(lf)
    ctx = 'gtpv1' if base[:2] in ('V1', 'UC', 'UR') else 'gtpv0' if base[:2] == 'V0' else 'gtpv2' if base[:2] == 'V2' or '/Typed/' in lf else ''
    for m in re.finditer(r'([\w./-]+\.go):(\d+)(?:-(\d+))?((?:,? (?:and )?\d+(?:-\d+)?)*)(?:\s+`([^`]+)`)?', s):
        f, a, b, _, name = m.groups()
        a = int(a); b = int(b or a); n += 1
        line = s[:m.start()].count('\n') + 1
        c = find(f, ctx)
        if not c: print('%s:%d: no file %s' % (base, line, f)); bad += 1; continue
        good = False
        for x in c:
            L = files[x]
            if b > len(L): continue
            if name is None: good = True; continue
            nm = re.split(r'[ (]', name.strip('()*'))[0].split(').')[-1].split('.')[-1].strip('*()')
            if re.search(r'\b%s\b' % re.escape(nm), L[a-1]): good = True
        if not good: print('%s:%d: %s' % (base, line, m.group(0).replace('\n', ' '))); bad += 1
print(n, 'citations,', bad, 'to check')
