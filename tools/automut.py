#!/usr/bin/env python3
"""Automatic mutants of the model.

Usage: automut.py WORKER NWORKERS SEED PER_DEF [FILE...]   For every definition of the model files, up to PER_DEF random edits
(another number, another comparison, a negated condition, another operator, ...) are made, one at a time, in a scratch copy
from which the examples are removed, so that only theorems can notice.  The build is stopped at the first module that fails.
Edits that do not type-check are discarded.  One line per mutant is appended to seeded/AUTO.jsonl.
"""
import json, os, random, re, subprocess, sys, glob, signal, shutil
W, N, SEED, K = int(sys.argv[1]), int(sys.argv[2]), int(sys.argv[3]), int(sys.argv[4])
ROOT = '/tmp/am'
BASE, WORK, LOG = ROOT + '/base', ROOT + '/w%d' % W, '/verif/seeded/AUTO.jsonl'

def strip_examples(s):
    ls, out, i = s.split('\n'), [], 0
    while i < len(ls):
        if re.match(r'example\b', ls[i]):
            # drop what belongs to it: documentation and options
            while out and re.match(r'(set_option .* in|open .* in)$', out[-1]): out.pop()
            if out and out[-1].rstrip().endswith('-/'):
                j = len(out) - 1
                while not re.match(r'/-', out[j]): j -= 1
                if out[j].startswith('/--'): del out[j:]
            i += 1
            while i < len(ls) and (ls[i] == '' or ls[i][0] in ' |·⟨)'): i += 1
            out.append('')
        else: out.append(ls[i]); i += 1
    return '\n'.join(out)

OPS = [(r'(?<![\w.#])(\d+)(?![\w.])', lambda m: str(int(m.group(1)) + 1), 'another number'),
       (r'(?<![\w.#])([1-9]\d*)(?![\w.])', lambda m: str(int(m.group(1)) - 1), 'another number'),
       (r'0x([0-9a-f]+)\b', lambda m: '0x%x' % (int(m.group(1), 16) ^ 1), 'another number'),
       (r' < ', lambda m: ' ≤ ', 'boundary'), (r' ≤ ', lambda m: ' < ', 'boundary'), (r' > ', lambda m: ' ≥ ', 'boundary'),
       (r' = (?=[^=])', lambda m: ' ≠ ', 'negated equality'), (r' ≠ ', lambda m: ' = ', 'negated equality'),
       (r' == ', lambda m: ' != ', 'negated equality'), (r' != ', lambda m: ' == ', 'negated equality'),
       (r' && ', lambda m: ' || ', 'or for and'), (r' \|\| ', lambda m: ' && ', 'and for or'),
       (r' ∧ ', lambda m: ' ∨ ', 'or for and'), (r' ∨ ', lambda m: ' ∧ ', 'and for or'),
       (r' \+ ', lambda m: ' - ', 'minus for plus'), (r' - ', lambda m: ' + ', 'plus for minus'),
       (r' &&& ', lambda m: ' ||| ', 'bitwise or for and'), (r' \|\|\| ', lambda m: ' &&& ', 'bitwise and for or'),
       (r' <<< ', lambda m: ' >>> ', 'shift the other way'), (r' >>> ', lambda m: ' <<< ', 'shift the other way'),
       (r'\btrue\b', lambda m: 'false', 'false for true'), (r'\bfalse\b', lambda m: 'true', 'true for false'),
       (r'\.panic\b', lambda m: '(err .eof)', 'error for panic'), (r'\berr \.(\w+)', lambda m: 'ok default' , 'no error'),
       (r'\berr \.(\w+)', lambda m: '.panic' , 'panic for error'),
       (r'\bif (?!let|h\w* :)([^\n]*?) then', lambda m: 'if ¬ (%s) then' % m.group(1), 'negated condition'),
       (r' ++ ', lambda m: ' ++ [] ++ ', None),
       (r'\.take\b', lambda m: '.drop', 'drop for take'), (r'\.drop\b', lambda m: '.take', 'take for drop'),
       (r'\bbe16\b', lambda m: 'List.reverse (be16', None),
       (r'"(\w[^"]*)"', lambda m: '"' + m.group(1) + 'X"', 'another name'),
       ]
OPS = [o for o in OPS if o[2]]
# two arguments exchanged
ARG = re.compile(r'\b([a-z]\w*) ([a-z]\w*)(?= [a-z)]|\)|$)')

def mutants(path):
    s = open(BASE + '/' + path).read()
    com = [(m.start(), m.end()) for m in re.finditer(r'/-.*?-/|--[^\n]*', s, re.S)]
    for d in re.finditer(r'^(?:@\[[^\n]*\]\s*)?(?:private )?def (\S+)(.*?)(?=^\S(?!\|)|\Z)', s, re.M | re.S):
        body0 = d.start(2)
        m0 = re.search(r':=|\n  \|', d.group(2))
        if not m0: continue
        lo, hi = body0 + m0.start(), d.end(2)
        c = []
        for rx, f, what in OPS:
            for m in re.finditer(rx, s[:hi]):
                if m.start() < lo: continue
                if any(a <= m.start() < b for a, b in com): continue
                try: new = f(m)
                except Exception: continue
                c.append((m.start(), m.end(), new, what))
        random.Random('%d%s%s' % (SEED, path, d.group(1))).shuffle(c)
        # prefer different kinds of edits
        seen, out = set(), []
        for x in c:
            if x[3] not in seen: seen.add(x[3]); out.append(x)
        out += [x for x in c if x not in out]
        for a, b, new, what in out[:K]:
            ln = s.count('\n', 0, a)
            ls = s.split('\n')
            t = s[:a] + new + s[b:]
            yield path, d.group(1), t, 'line %d: %s  ->  %s' % (ln + 1, ls[ln].strip(), t.split('\n')[ln].strip()), what

def modname(p): return p[:-5].replace('/', '.')
def graph():
    g = {}
    for f in glob.glob(BASE + '/Verif/**/*.lean', recursive=True):
        p = f[len(BASE) + 1:]
        g[modname(p)] = re.findall(r'^import (Verif\S*)', open(f).read(), re.M)
    return g

def enclosing(path, line):
    for l in reversed(open(WORK + '/' + path).read().split('\n')[:line]):
        x = re.match(r'(?:@\[[^\]]*\]\s*)?(?:private )?(?:theorem|def|abbrev|instance|structure|inductive)\b\s*([^\s:({\[]*)', l)
        if x: return x.group(1)

def build():
    p = subprocess.Popen(['lake', 'build'], cwd=WORK, stdout=subprocess.PIPE, stderr=subprocess.STDOUT, text=True, start_new_session=True)
    lines, bad = [], False
    try:
        for l in p.stdout:
            lines.append(l)
            if re.match(r'error: Lean exited', l): bad = True; break
            if re.match(r'(✖|error: build failed)', l): bad = True
    finally:
        if bad:
            try: os.killpg(p.pid, signal.SIGKILL)
            except ProcessLookupError: pass
        p.wait()
    return bad or p.returncode != 0, ''.join(lines)

if __name__ == '__main__':
    if W == 0 and not os.path.exists(BASE + '/.ready'):
        subprocess.run(['rm', '-rf', BASE]); os.makedirs(ROOT, exist_ok=True)
        subprocess.run(['cp', '-a', '/verif/lean', BASE], check=True)
        for f in glob.glob(BASE + '/Verif/**/*.lean', recursive=True):
            s = open(f).read(); t = strip_examples(s)
            if s != t: open(f, 'w').write(t)
        r = subprocess.run(['lake', 'build'], cwd=BASE, capture_output=True, text=True)
        if r.returncode: print(r.stdout[-3000:]); sys.exit(1)
        open(BASE + '/.ready', 'w').write('')
    done = set()
    if os.path.exists(LOG):
        for l in open(LOG): x = json.loads(l); done.add((x['file'], x['definition'], x['edit']))
    files = sys.argv[5:] or sorted(f[len(BASE) + 1:] for f in glob.glob(BASE + '/Verif/Model/**/*.lean', recursive=True) if 'Tables' not in f and 'Consts' not in f)
    M = [m for f in files for m in mutants(f)]
    random.Random(SEED).shuffle(M)
    M = M[W::N]
    print(len(M), 'mutants', flush=True)
    for path, name, text, edit, what in M:
        if (path, name, edit) in done: continue
        subprocess.run(['rm', '-rf', WORK]); subprocess.run(['cp', '-a', BASE, WORK], check=True)
        open(WORK + '/' + path, 'w').write(text)
        bad, out = build()
        errs = re.findall(r'^error: (Verif/\S+\.lean):(\d+):', out, re.M)
        if bad and (not errs or any('/Model/' in f or f.endswith('Base.lean') for f, _ in errs)):
            rec = dict(file=path, definition=name, edit=edit, what=what, outcome='invalid', by=[])
        elif bad:
            by = []
            for f, l in errs:
                n = enclosing(f, int(l))
                if n and n not in by: by.append(n)
            rec = dict(file=path, definition=name, edit=edit, what=what, outcome='killed', by=by[:8])
        else: rec = dict(file=path, definition=name, edit=edit, what=what, outcome='survived', by=[])
        open(LOG, 'a').write(json.dumps(rec, ensure_ascii=False) + '\n')
        print(rec['outcome'], path[12:], name, edit[:120], rec['by'][:3], flush=True)
