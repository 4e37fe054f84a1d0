#!/usr/bin/env python3
"""The surviving edits of seeded/AUTO.jsonl once more, against the theorems there are now.

Usage: again.py   The scratch copy /tmp/am/base is used as by automut.py (delete it to refresh it).  An edit that some theorem
notices now is appended to seeded/AUTO.jsonl with outcome "killed" and "again": true.
"""
import sys
sys.argv = ['automut.py', '0', '1', '0', '0']
sys.path.insert(0, '/verif/tools')
from automut import *

if not os.path.exists(BASE + '/.ready'):
    subprocess.run(['rm', '-rf', BASE]); os.makedirs(ROOT, exist_ok=True)
    subprocess.run(['cp', '-a', '/verif/lean', BASE], check=True)
    for f in glob.glob(BASE + '/Verif/**/*.lean', recursive=True):
        s = open(f).read(); t = strip_examples(s)
        if s != t: open(f, 'w').write(t)
    r = subprocess.run(['lake', 'build'], cwd=BASE, capture_output=True, text=True)
    if r.returncode: print(r.stdout[-3000:]); sys.exit(1)
    open(BASE + '/.ready', 'w').write('')
last = {}
for l in open(LOG): x = json.loads(l); last[x['file'], x['definition'], x['edit']] = x
for (path, name, edit), x in last.items():
    if x['outcome'] != 'survived': continue
    old, new = edit[edit.index(': ') + 2:].split('  ->  ')
    n = int(edit[5:edit.index(':')])
    ls = open(BASE + '/' + path).read().split('\n')
    at = [i for i, l in enumerate(ls) if l.strip() == old]
    if not at: print('gone', path, name, edit[:100], flush=True); continue
    i = min(at, key=lambda i: abs(i + 1 - n))
    ls[i] = ls[i].replace(old, new)
    subprocess.run(['rm', '-rf', WORK]); subprocess.run(['cp', '-a', BASE, WORK], check=True)
    open(WORK + '/' + path, 'w').write('\n'.join(ls))
    bad, out = build()
    by = []
    for f, l in re.findall(r'^error: (Verif/\S+\.lean):(\d+):', out, re.M):
        k = enclosing(f, int(l))
        if k and k not in by: by.append(k)
    if bad: open(LOG, 'a').write(json.dumps(dict(x, outcome='killed', by=by[:8], again=True), ensure_ascii=False) + '\n')
    print('killed' if bad else 'survived', path[12:], name, edit[:120], by[:3], flush=True)
