#!/usr/bin/env python3
"""Extracts the flag tables of gtpv2/ie/indication.go into lean/Verif/Model/Typed/IndicationTab.lean."""
import re
src = open('/repo/gtpv2/ie/indication.go').read()
m = re.search(r'func NewIndication\((.*?)uint8,\n\)', src, re.S)
params = [x.strip() for x in m.group(1).replace('\n', ' ').split(',') if x.strip()]
assert len(params) == 72
asg = re.findall(r'i\.Payload\[(\d)\] \|= \(?(\w+)(?: << (\d))?\)?\n', src)
assert len(asg) == 72
acc = re.findall(r'func \(i \*IE\) Has(\w+)\(\) bool \{\n\tv, err := i\.Indication\(\)\n\tif err != nil \{\n\t\treturn false\n\t\}\n'
                 r'\tif len\(v\) < (\d) \{\n\t\treturn false\n\t\}\n\n\treturn has(\w+)Bit\(v\[(\d)\]\)\n\}', src)
assert len(acc) == len(re.findall(r'func \(i \*IE\) Has', src)) == 65
bits = {'1st': 0, '2nd': 1, '3rd': 2, '4th': 3, '5th': 4, '6th': 5, '7th': 6, '8th': 7}
def ctor(n):
    n = n.lower()
    return {'ppof': 'ppoff', '5gsiwk': 'fgsiwk', '5gsnn26': 'fgsnn26', '5srhoi': 'fsrhoi', '5gcnri': 'fgcnri', '5gcnrs': 'fgcnrs'}.get(n, n)
o = ['import Verif.Model.Typed.Bits', '/-', 'Generated by tools/gen_indication.py from gtpv2/ie/indication.go.', '-/',
     'namespace Verif.V2', '', '/-- the 72 flags, named after the parameters of `NewIndication` (indication.go:17-27) -/', 'inductive Ind where']
row = []
for i in range(0, 72, 8):
    o.append('  ' + ' '.join('| ' + ctor(p) for p in params[i:i + 8]))
o.append('  deriving DecidableEq, Repr')
o.append('')
o.append('/-- the parameters of `NewIndication` in order (indication.go:17-27) -/')
o.append('def indParams : List Ind := [')
for i in range(0, 72, 8):
    o.append('  ' + ', '.join('.' + ctor(p) for p in params[i:i + 8]) + (',' if i < 64 else ']'))
o.append('')
o.append('/-- the assignments `i.Payload[k] |= (flag << s)` of `NewIndication`, octet by octet (indication.go:29-108) -/')
o.append('def indBlocks : List (List (Ind × UInt8)) := [')
for k in range(9):
    b = [(n, s or '0') for (q, n, s) in asg if int(q) == k]
    assert [a for a in asg][8 * k:8 * k + 8] == [(str(k), n, '' if s == '0' else s) for n, s in b]
    o.append('  [' + ', '.join('(.%s, %s)' % (ctor(n), s) for n, s in b) + ']' + (',' if k < 8 else ']'))
o.append('')
o.append('/-- the accessors `HasXXX` (indication.go:164-1008): flag, required length, octet, bit (0 for `has1stBit`) -/')
o.append('def indAccessors : List (Ind × Nat × Nat × Nat) := [')
for j, (n, l, b, q) in enumerate(acc):
    o.append('  (.%s, %s, %s, %d)%s' % (ctor(n), l, q, bits[b], ',' if j < len(acc) - 1 else ']'))
o += ['', 'end Verif.V2', '']
open('/verif/lean/Verif/Model/Typed/IndicationTab.lean', 'w').write('\n'.join(o))
