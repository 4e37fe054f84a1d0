#!/usr/bin/env python3
"""Which loops over a list field skip nil entries, read from the Go text: prints the tables of Model/Nil.lean."""
import re, glob, os

def body(s, typ, fn):
    m = re.search(r'^func \(\w+ \*' + typ + r'\) ' + fn + r'\(.*?^\}', s, re.S | re.M)
    return m.group(0)

def checked(b, f):
    loops = re.findall(r'for _, (\w+) := range \w+\.' + f + r' \{\n(.*?)\n\t\}', b, re.S)
    assert len(loops) <= 1, (f, loops)
    if not loops:
        return None
    v, l = loops[0]
    l = l.strip()
    if l.startswith('if %s == nil {\n\t\t\tcontinue\n\t\t}' % v):
        return True
    assert v + ' == nil' not in l and v + ' != nil' not in l, l
    return False

for v in '012':
    rows = []
    for p in sorted(glob.glob(f'/repo/gtpv{v}/message/*.go')):
        s = open(p).read()
        for m in re.finditer(r'^type (\w+) struct \{\n(.*?)\n\}', s, re.S | re.M):
            fl = [x.strip() for y in re.findall(r'^\t([\w, ]+?)\s+\[\]\*ie\.IE', m.group(2), re.M) for x in y.split(',')]
            if not fl:
                continue
            n, t = ([f for f in fl if checked(body(s, m.group(1), fn), f)] for fn in ('MarshalLen', 'MarshalTo'))
            for fn in ('MarshalLen', 'MarshalTo'):
                for f in fl:
                    if checked(body(s, m.group(1), fn), f) is None:
                        print('-- no loop', os.path.basename(p), fn, f)
            rows.append((m.group(1), n, t))
    print(f'-- gtpv{v}: {len(rows)} types')
    q = lambda l: '[' + ', '.join('"%s"' % x for x in l) + ']'
    print('[' + ',\n  '.join(f'("{a}", {q(n)}, {q(t)})' for a, n, t in rows) + ']')
