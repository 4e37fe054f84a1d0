#!/usr/bin/env python3
"""Write lean/Verif/Model/Consts.lean: the exported constants and the names of the library, read from /repo as text."""
import re, sys
sys.path.insert(0, '/verif/tools')
import gen_tables

R = '/repo/'
# file, line of "const (", name of the Lean definition
BLOCKS = [
 ('gtpv0/constants.go', 8, 'v0Causes'), ('gtpv0/constants.go', 35, 'v0PDPTypes'), ('gtpv0/constants.go', 41, 'v0SelectionModes'),
 ('gtpv0/ie/ie.go', 16, 'v0TV'), ('gtpv0/ie/ie.go', 38, 'v0TLV'), ('gtpv0/message/message.go', 19, 'v0Messages'),
 ('gtpv1/constants.go', 14, 'v1ReqCauses'), ('gtpv1/constants.go', 29, 'v1Acceptance'), ('gtpv1/constants.go', 37, 'v1Rejection'),
 ('gtpv1/constants.go', 84, 'v1SelectionModes'), ('gtpv1/constants.go', 91, 'v1PDPTypes'), ('gtpv1/constants.go', 98, 'v1Protocols'),
 ('gtpv1/constants.go', 106, 'v1Containers'), ('gtpv1/constants.go', 145, 'v1ConfigProtocols'),
 ('gtpv1/constants.go', 150, 'v1RatTypes'), ('gtpv1/constants.go', 161, 'v1LocTypes'),
 ('gtpv1/constants.go', 168, 'v1APNRestrictions'), ('gtpv1/constants.go', 177, 'mapCauses'), ('gtpv1/constants.go', 254, 'ranapCauses'),
 ('gtpv1/ie/ie.go', 16, 'v1TV'), ('gtpv1/ie/ie.go', 47, 'v1TLV'), ('gtpv1/ie/ms-timezone.go', 14, 'v1TimeAdjusts'),
 ('gtpv1/message/message.go', 19, 'v1Messages'), ('gtpv1/message/extension-header.go', 10, 'v1ExtensionHeaders'),
 ('gtpv2/constants.go', 8, 'v2Renamed'), ('gtpv2/constants.go', 24, 'interfaceTypes'), ('gtpv2/constants.go', 68, 'v2APNRestrictions'),
 ('gtpv2/constants.go', 77, 'v2Causes'), ('gtpv2/constants.go', 166, 'csgMemberships'), ('gtpv2/constants.go', 172, 'detachTypes'),
 ('gtpv2/constants.go', 179, 'nodeIDTypes'), ('gtpv2/constants.go', 186, 'nodeTypes'), ('gtpv2/constants.go', 193, 'v2Protocols'),
 ('gtpv2/constants.go', 201, 'v2Containers'), ('gtpv2/constants.go', 240, 'v2ConfigProtocols'), ('gtpv2/constants.go', 245, 'pdnTypes'),
 ('gtpv2/constants.go', 254, 'protocolTypes'), ('gtpv2/constants.go', 264, 'causeTypes'), ('gtpv2/constants.go', 273, 'ratTypes'),
 ('gtpv2/constants.go', 288, 'v2SelectionModes'), ('gtpv2/constants.go', 295, 'serviceIndicators'),
 ('gtpv2/constants.go', 302, 'accessModes'), ('gtpv2/constants.go', 308, 'daylightSavings'),
 ('gtpv2/ie/bearer-tft.go', 8, 'tftOperations'), ('gtpv2/ie/tft.go', 208, 'tftDirections'), ('gtpv2/ie/tft.go', 332, 'tftComponents'),
 ('gtpv2/ie/tft.go', 846, 'tftParameters'), ('gtpv2/ie/pco-ppp.go', 13, 'pppCodes'), ('gtpv2/ie/pco-ppp.go', 318, 'ipcpOptions'),
 ('gtpv2/ie/pco.go', 14, 'pcoConfigProtocols'), ('gtpv2/ie/pco.go', 155, 'pcoProtocols'),
 ('gtpv2/ie/ie.go', 19, 'v2IE'), ('gtpv2/message/message.go', 20, 'v2Messages')]

def block(path, line):
    out = []; it = 0; expr = None
    ls = open(R + path).read().split('\n')
    assert ls[line - 1].strip() == 'const (', (path, line)
    n = line
    while True:
        l = ls[n].split('//')[0].strip(); n += 1
        if l == ')': return out, n
        if not l: continue
        m = re.fullmatch(r'(\w+)(\s+uint(?:8|16))?(\s*=\s*(.+))?', l)
        assert m, (path, l)
        if m.group(4): expr = m.group(4).strip()
        v = eval(expr, {'iota': it}); it += 1
        assert 0 <= v < 65536 and (v < 256 or 'uint16' in (ls[line] + l) or m.group(2))
        if m.group(1) != '_': out.append((m.group(1), v))

def wrap(items, ind='  '):
    lines = ['']
    for i, s in enumerate(items):
        s += ',' if i + 1 < len(items) else ''
        if len(ind) + len(lines[-1]) + len(s) > 124: lines.append('')
        lines[-1] += (' ' if lines[-1] else '') + s
    return '\n'.join(ind + l for l in lines)

def main():
    o = ['/-', 'Exported constants and names of the library. Written by tools/gen_consts.py from /repo: every block of constants is the',
         'list of its identifiers and values in the order of the source, blanks left out, `iota` evaluated; every name table is the',
         'list of its entries. The types of the constants (uint8 or uint16) are not carried; the values fit.', '-/',
         'namespace Verif.Consts', '']
    for p, l, n in BLOCKS:
        b, e = block(p, l)
        o += [f'/-- {p}:{l}-{e} -/', f'def {n} : List (String × Nat) := [']
        o += [wrap([f'("{a}", {v})' for a, v in b]) + ']', '']
    for v in '012':
        p = f'gtpv{v}/ie/ie.go'
        t = open(R + p).read()
        i = t.index('var ieTypeNameMap = map[uint8]string{')
        body = t[i:]; body = body[:body.index('\n}\n')]
        l = t[:i].count('\n') + 1
        es = re.findall(r'^\t(\d+):\s*"(.*)",(?:\s*//.*)?$', body, flags=re.M)
        assert len(es) == body.count('\n'), (p, len(es), body.count('\n'))
        o += [f'/-- {p}:{l}-{l + body.count(chr(10)) + 1} (ieTypeNameMap) -/', f'def v{v}IENames : List (UInt8 × String) := [']
        o += [wrap([f'({a}, "{s}")' for a, s in es]) + ']', '']
    for v in '012':
        p = f'gtpv{v}/message/message.go'
        cs, (a, b) = gen_tables.dispatch(R + p)
        k = gen_tables.consts(R + p)
        es = []; cites = []
        import glob
        names = {}
        for f in sorted(glob.glob(R + f'gtpv{v}/message/*.go')):
            t = open(f).read()
            for m in re.finditer(r'func \(\w+ \*(\w+)\) MessageTypeName\(\) string \{\n\treturn (.*)\n\}', t):
                names[m.group(1)] = (m.group(2), f[len(R):], t[:m.start()].count('\n') + 1)
        for c, s in cs:
            x, f, l = names[s]
            assert x.startswith('"')
            es.append(f'({k[c]}, {x})'); cites.append(f'{f}:{l}-{l+2}')
        o += [f'/-- the type under which Parse makes a message ({p}:{a}-{b}) and its MessageTypeName', wrap([c for c in cites]) + ' -/',
              f'def v{v}MsgNames : List (UInt8 × String) := [', wrap(es) + ']', '']
    o += ['/-- the entry of a map -/', 'def entry (m : List (UInt8 × String)) (t : UInt8) : Option String := (m.find? fun e => e.1 == t).map (·.2)', '',
      '/-- (*IE).Name: gtpv0/ie/ie.go:188-194, gtpv1/ie/ie.go:332-338, gtpv2/ie/ie.go:304-310 -/',
      'def ieName (m : List (UInt8 × String)) (t : UInt8) : String :=', '  match entry m t with', '  | some n => n', '  | none => "Undefined"', '',
      '/-- MessageTypeName of what Parse makes of a message of type t; other types are Generic: gtpv0/message/generic.go:113-116,',
      'gtpv1/message/generic.go:109-112, gtpv2/message/generic.go:130-133 -/',
      'def msgName (m : List (UInt8 × String)) (t : UInt8) : String :=', '  match entry m t with', '  | some n => n',
      '  | none => "Unknown (" ++ toString t.toNat ++ ")"', '', 'end Verif.Consts', '']
    open('/verif/lean/Verif/Model/Consts.lean', 'w').write('\n'.join(o))
if __name__ == '__main__': main()
