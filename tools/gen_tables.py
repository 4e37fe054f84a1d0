#!/usr/bin/env python3
"""Emit the Lean message tables (Verif/Model/V{0,1,2}Tables.lean) from the Go text (see extract.py)."""
import re, sys
sys.path.insert(0, "/verif/tools")
import extract
REPO = "/repo"

def consts(path):
    """constant blocks with iota or explicit values"""
    out = {}
    inblk = False; it = 0; expr = None
    incomment = False
    for l in open(path):
        l = l.split("//")[0].strip()
        if l == "const (":
            inblk = True; it = 0; expr = None; continue
        if not inblk: continue
        if l == ")":
            inblk = False; continue
        if not l: continue
        m = re.fullmatch(r"(\w+)(\s+uint8)?(\s*=\s*(.+))?", l)
        if not m: raise Exception((path, l))
        if m.group(4): expr = m.group(4).strip()
        if expr is None: raise Exception((path, l))
        try:
            v = eval(expr, {"iota": it})
        except Exception:
            v = None
        if m.group(1) != "_": out[m.group(1)] = v
        it += 1
    return out

def dispatch(path):
    t = open(path).read()
    b = t[t.index("func Parse(b []byte)"):]
    b = b[:b.index("\n}\n")]
    b = re.sub(r"/\*.*?\*/", "", b, flags=re.S)
    first = t[:t.index("func Parse(b []byte)")].count("\n") + 1
    cs = re.findall(r"case (\w+):\s*\w = &(\w+)\{\}", b)
    assert len(cs) == b.count("case "), path
    d = re.search(r"default:\s*\w = &(\w+)\{\}", b).group(1)
    assert d == "Generic"
    return cs, (first, first + b.count("\n") + 1)

def flags(v, e):
    m = re.fullmatch(r"NewHeaderFlags\(([\d, ]+)\)", e)
    if m:
        a = [int(x) for x in m.group(1).split(",")]
        if v == "gtpv2": return (a[0] & 7) << 5 | (a[1] & 1) << 4 | (a[2] & 1) << 3
        raise Exception(e)
    return int(e, 16)

def main():
    allm = extract.main()
    for v in ("gtpv0", "gtpv1", "gtpv2"):
        n = v[-1]
        ies = {}
        ies.update(consts("%s/%s/ie/ie.go" % (REPO, v)))
        mts = consts("%s/%s/message/message.go" % (REPO, v))
        cs, lines = dispatch("%s/%s/message/message.go" % (REPO, v))
        o = []
        o.append("import Verif.Model.Msg\n/-\nGenerated from the text of %s/message/*.go and %s/ie/ie.go by tools/gen_tables.py.\n"
                 "One `Schema` per message type.  A rule `⟨t, i, act⟩` is the case of IE type t (and instance i).\n-/\n"
                 "namespace Verif.V%s.Tab\nopen Verif.Msg\nopen Verif.Msg.Act\n" % (v, v, n))
        names = []
        for m in allm[v]:
            F = [f for f, _ in m["fields"]]
            ix = {f: i for i, f in enumerate(F)}
            def act(a):
                if a[0] == "drop": return "drop"
                if a[0] in ("set", "app"): return "%s %d" % (a[0], ix[a[1]])
                if a[0] == "free":
                    s = act(a[2])
                    for f in reversed(a[1]):
                        s = "free %d (%s)" % (ix[f], s)
                    return s
                if a[0] == "ifset": return "ifset %d (%s)" % (ix[a[1]], act(a[2]))
                raise Exception(a)
            def rules(cases):
                out = []
                for t, a in cases:
                    if a[0] == "inst":
                        for i, b in a[1]:
                            out.append("⟨%d, some %d, %s⟩" % (ies[t], int(i), act(b)))
                        out.append("⟨%d, none, %s⟩" % (ies[t], act(a[2])))
                    else:
                        out.append("⟨%d, none, %s⟩" % (ies[t], act(a)))
                # wrap
                lines, cur = [], ""
                for x in out:
                    if len(cur) + len(x) > 100:
                        lines.append(cur); cur = ""
                    cur += x + ", "
                lines.append(cur)
                return "[" + "\n    ".join(lines).rstrip().rstrip(",") + "]"
            multi = [i for i, (f, mu) in enumerate(m["fields"]) if mu]
            to = m["to"]
            for f, mu, nilchk, adv in to:
                assert bool(mu) == bool(ix[f] in multi), (m["name"], f)
            h = m["hdr"]
            teidpos = {"gtpv0": 4, "gtpv1": 2, "gtpv2": 2}[v]
            hasteid = h[teidpos] not in ("0", "0x00")
            assert h[teidpos] in ("0", "teid", "tid"), h
            fl = flags(v, h[0])
            sl = {"gtpv0": 20, "gtpv1": 8, "gtpv2": 4}[v]
            assert re.fullmatch(r"(\w)\.(Header\.)?Length = uint16\(\1\.MarshalLen\(\) - %d\)" % sl, m["setLength"][0]), m["setLength"]
            nm = m["name"][0].lower() + m["name"][1:]
            names.append((m["name"], nm))
            o.append("/-- %s: New %d-%d, MarshalTo %d-%d, UnmarshalBinary %d-%d, MarshalLen %d-%d -/" % (
                m["file"], *m["newLines"], *m["toLines"], *m["unLines"], *m["lenLines"]))
            o.append("def %s : Schema where" % nm)
            o.append('  name := "%s"' % m["name"])
            o.append("  typ := %d" % mts[h[1]])
            o.append("  flags := 0x%02x" % fl)
            o.append("  hasTEIDArg := %s" % str(hasteid).lower())
            fs, cur = [], ""
            for f in F:
                if len(cur) + len(f) > 95: fs.append(cur); cur = ""
                cur += '"%s", ' % f
            fs.append(cur)
            o.append("  fields := [%s]" % "\n    ".join(fs).rstrip().rstrip(","))
            o.append("  multi := %s" % multi)
            o.append("  newRules := %s" % rules(m["newCases"]))
            o.append("  newDefault := %s" % act(m["newDefault"]))
            o.append("  unRules := %s" % rules(m["unCases"]))
            o.append("  unDefault := %s" % act(m["unDefault"]))
            es = ["⟨%d, %s⟩" % (ix[f], str(bool(adv)).lower()) for f, mu, nc, adv in to]
            ls, cur = [], ""
            for e in es:
                if len(cur) + len(e) > 100: ls.append(cur); cur = ""
                cur += e + ", "
            ls.append(cur)
            o.append("  order := [%s]" % "\n    ".join(ls).rstrip().rstrip(","))
            o.append("  lens := %s" % [ix[x[0]] for x in m["len"]])
            o.append("  reset := %s" % str(m["toReset"]).lower())
            o.append("  lenCheck := %s" % str(m["toLenCheck"]).lower())
            o.append("  early := %s" % str(m["unEarly"]).lower())
            o.append("")
        low = dict(names)
        o.append("/-- all typed messages -/\ndef all : List Schema := [%s]\n" % ",\n  ".join(dict.fromkeys(x for _, x in names)))
        special = [c for c in cs if c[1] not in low]
        assert [c[1] for c in special] in ([], ["TPDU"]), special
        o.append("/-- %s/message/message.go:%d-%d the switch of `Parse`: message type octet and the struct it is decoded into%s -/" % (
            v, lines[0], lines[1], " (T-PDU is handled separately)" if special else ""))
        o.append("def dispatch : List (UInt8 × Schema) := [%s]\n" % ",\n  ".join(
            "(%d, %s)" % (mts[t], low[s]) for t, s in cs if s in low))
        o.append("end Verif.V%s.Tab\n" % n)
        open("/verif/lean/Verif/Model/V%sTables.lean" % n, "w").write("\n".join(x.rstrip() for x in "\n".join(o).split("\n")) + "\n")
        print(v, len(names), [x for x in names if x[0] not in [s for _, s in cs]])

main()
