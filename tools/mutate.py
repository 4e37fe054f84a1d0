#!/usr/bin/env python3
"""Mutation tests of the theorems.

Usage: mutate.py FILE...   Each FILE is a Python file with calls m(definition, path, old, new, claim): in a scratch copy
of /verif/lean, replace the only occurrence of `old` in Verif/`path` by `new` and rebuild.  One line per mutant is
appended to seeded/LOG.jsonl: what was edited, which claim is broken by it, which theorems stopped proving
(`theorems_failed`: an error inside them; `not_reached`: property theorems in modules that import a failed one).
A mutant with neither survived.
"""
import json, os, re, subprocess, sys, glob
BASE, WORK = '/verif/lean', '/tmp/mut'
M = []
targets = []  # a FILE may assign the modules to build for the mutants that follow (default: everything)
def m(definition, path, old, new, claim): M.append((definition, path, old, new, claim, list(targets)))
for f in sys.argv[1:]: exec(open(f).read())

def sync():
    subprocess.run(['rm', '-rf', WORK + '/lean'], check=True)
    subprocess.run(['cp', '-a', WORK + '/base', WORK + '/lean'], check=True)

def imports():
    g = {}
    for f in glob.glob(WORK + '/lean/Verif/**/*.lean', recursive=True):
        mod = f[len(WORK + '/lean/'):-5].replace('/', '.')
        g[mod] = re.findall(r'^import (Verif\S*)', open(f).read(), re.M)
    return g

def doc(ls, line):
    """is the line inside a documentation comment?"""
    for l in reversed(ls[:line]):
        if l.startswith('/--'): return True
        if '-/' in l or l.startswith(('theorem', 'def', 'example', 'end', 'namespace')): return l is ls[line - 1] and '-/' in l
    return False

def enclosing(path, line):
    ls = open(WORK + '/lean/' + path).read().split('\n')
    ns, cur = [], None
    while line < len(ls) and not re.match(r'(?:theorem|def|example)', ls[line - 1]) and (
            ls[line - 1].startswith(('/--', 'set_option')) or doc(ls, line)): line += 1
    for i, l in enumerate(ls[:line]):
        x = re.match(r'namespace (\S+)', l)
        if x: ns.append(x.group(1))
        x = re.match(r'end (\S+)', l)
        if x and ns and ns[-1] == x.group(1): ns.pop()
        x = re.match(r'(?:@\[[^\]]*\]\s*)?(?:private )?(theorem|def|abbrev|instance|example)\b\s*([^\s:({\[]*)', l)
        if x: cur = '.'.join(ns + ([x.group(2)] if x.group(2) and x.group(1) != 'example' else ['example@%s:%d' % (path, i + 1)]))
    return cur

os.makedirs(WORK, exist_ok=True)
subprocess.run(['rm', '-rf', WORK + '/base'], check=True)
subprocess.run(['cp', '-a', BASE, WORK + '/base'], check=True)
done = set()
if os.path.exists('/verif/seeded/LOG.jsonl'):
    for l in open('/verif/seeded/LOG.jsonl'):
        d = json.loads(l); done.add((d['definition'], d['edit']))
for definition, path, old, new, claim, tgt in M:
    edit = 'Verif/%s: %s  ->  %s' % (path, old.strip(), new.strip())
    if (definition, edit) in done: continue
    sync()
    p = WORK + '/lean/Verif/' + path
    s = open(p).read()
    if s.count(old) != 1:
        print('SKIP', definition, 'occurrences:', s.count(old), flush=True); continue
    open(p, 'w').write(s.replace(old, new))
    r = subprocess.run(['lake', 'build'] + tgt, cwd=WORK + '/lean', capture_output=True, text=True)
    out = r.stdout + r.stderr
    failed, mods = [], set()
    for f, line in re.findall(r'^error: (Verif/\S+\.lean):(\d+):', out, re.M):
        n = enclosing(f, int(line))
        mods.add(f[:-5].replace('/', '.'))
        if n and n not in failed: failed.append(n)
    g = imports()
    bad = set(mods)
    while True:
        more = {a for a in g if a not in bad and any(b in bad for b in g[a])}
        if not more: break
        bad |= more
    blocked = []
    for mod in sorted(bad - mods):
        ns = []
        for l in open(WORK + '/lean/' + mod.replace('.', '/') + '.lean'):
            x = re.match(r'namespace (\S+)', l)
            if x: ns.append(x.group(1))
            x = re.match(r'end (\S+)', l)
            if x and ns and ns[-1] == x.group(1): ns.pop()
            x = re.match(r'theorem (C\d\d_\w+)', l)
            if x: blocked.append('.'.join(ns + [x.group(1)]))
    if len(blocked) > 12: blocked = blocked[:12] + ['... %d in all' % len(blocked)]
    rec = dict(definition=definition, edit=edit, claim_broken=claim, theorems_failed=failed[:20], not_reached=blocked,
               survived=(r.returncode == 0), theorems_tightened=[])
    open('/verif/seeded/LOG.jsonl', 'a').write(json.dumps(rec, ensure_ascii=False) + '\n')
    print('SURVIVED' if r.returncode == 0 else 'killed', definition, '|', claim[:60], '|', [x.split('.')[-1] for x in failed[:6]], flush=True)
