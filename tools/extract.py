#!/usr/bin/env python3
"""Extract the per-message IE tables of gtpv0/gtpv1/gtpv2 message packages from the Go text.

For every message type with typed IE fields this reads the Go source (it never builds it) and
collects
  * the dispatch switch of NewXxx,
  * the dispatch switch of (*Xxx).UnmarshalBinary,
  * the order in which (*Xxx).MarshalTo writes the fields,
  * the fields summed by (*Xxx).MarshalLen,
  * small per-function facts (nil checks, payload reset, early return, header flags, SetLength).
Anything that does not match the expected shapes is a hard error, so that nothing is skipped silently.
"""
import re, sys, os, json

REPO = "/repo"

def read(p):
    return open(p).read().split("\n")

def func_body(lines, pat):
    """returns (start,end,bodylines) 1-based inclusive for func whose header line matches pat"""
    for n, l in enumerate(lines):
        if re.match(pat, l):
            for m in range(n + 1, len(lines)):
                if lines[m] == "}":
                    return (n + 1, m + 1, lines[n:m + 1])
    return None

class P:
    """token/line cursor over trimmed non empty lines"""
    def __init__(self, lines):
        self.l = [(x.strip()) for x in lines if x.strip() and not x.strip().startswith("//")]
        self.i = 0
    def peek(self):
        return self.l[self.i] if self.i < len(self.l) else None
    def next(self):
        x = self.l[self.i]; self.i += 1; return x
    def expect(self, pat):
        x = self.next()
        m = re.fullmatch(pat, x)
        if not m:
            raise Exception("expected /%s/ got %r" % (pat, x))
        return m

R = r"([a-z]+)"

def parse_action(p, cons, fieldtypes):
    """parse statements of a case body until next case/default/}; returns action"""
    free = []
    tail = None
    while True:
        x = p.peek()
        if x.startswith("case ") or x.startswith("default:") or x == "}":
            break
        m = re.fullmatch(r"%s\.(\w+) = i" % cons, x)
        if m:
            p.next(); tail = ("set", m.group(1)); continue
        m = re.fullmatch(r"%s\.(\w+) = append\(%s\.(\w+), i\)" % (cons, cons), x)
        if m and m.group(1) == m.group(2):
            p.next(); tail = ("app", m.group(1)); continue
        m = re.fullmatch(r"if %s\.(\w+) == nil \{" % cons, x)
        if m:
            # first-free chain, several syntactic forms
            p.next()
            f = m.group(1)
            p.expect(r"%s\.%s = i" % (cons, f))
            free.append(f)
            y = p.peek()
            if y == "continue":
                p.next(); p.expect(r"\}")
                continue
            # } else if ... or } else { or }
            while True:
                y = p.next()
                m2 = re.fullmatch(r"\} else if %s\.(\w+) == nil \{" % cons, y)
                if m2:
                    p.expect(r"%s\.%s = i" % (cons, m2.group(1)))
                    free.append(m2.group(1)); continue
                if y == "} else {":
                    z = p.next()
                    m3 = re.fullmatch(r"%s\.(\w+) = append\(%s\.(\w+), i\)" % (cons, cons), z)
                    m4 = re.fullmatch(r"%s\.(\w+) = i" % cons, z)
                    if m3: tail = ("app", m3.group(1))
                    elif m4: tail = ("set", m4.group(1))
                    else: raise Exception("else body " + z)
                    p.expect(r"\}")
                    break
                if y == "}":
                    break
                raise Exception("free chain " + y)
            continue
        m = re.fullmatch(r"switch i\.Instance\(\) \{", x)
        if m:
            p.next()
            cases = []
            dflt = ("drop",)
            while p.peek() != "}":
                y = p.next()
                m5 = re.fullmatch(r"case (\d+):", y)
                if m5:
                    cases.append((int(m5.group(1)), parse_action(p, cons, fieldtypes)))
                elif y == "default:":
                    dflt = parse_action(p, cons, fieldtypes)
                else:
                    raise Exception("inst switch " + y)
            p.next()
            tail = ("inst", cases, dflt)
            continue
        m = re.fullmatch(r"if %s\.(\w+) != nil \{" % cons, x)
        if m:
            # `if x.F != nil { x.F = i } else { x.G = append(x.G, i) }`
            f = m.group(1)
            p.next()
            p.expect(r"%s\.%s = i" % (cons, f))
            p.expect(r"\} else \{")
            m2 = p.expect(r"%s\.(\w+) = append\(%s\.\1, i\)" % (cons, cons))
            p.expect(r"\}")
            tail = ("ifset", f, ("app", m2.group(1)))
            continue
        m = re.fullmatch(r"if i\.Instance\(\) == (\d+) \{", x)
        if m:
            p.next()
            m2 = p.expect(r"%s\.(\w+) = i" % cons)
            p.expect(r"\}")
            tail = ("inst", [(int(m.group(1)), ("set", m2.group(1)))], ("drop",))
            continue
        raise Exception("unknown stmt in case: " + x)
    if tail is None:
        tail = ("drop",)
    if free:
        return ("free", free, tail)
    return tail

def parse_switch(p, cons):
    """cursor at 'for _, i := range ies {'"""
    p.expect(r"for _, i := range (?:ies|ie|decodedIEs) \{")
    nilskip = False
    if p.peek() == "if i == nil {":
        p.next(); p.expect("continue"); p.expect(r"\}")
        nilskip = True
    m = re.fullmatch(r"%s\.(\w+) = append\(%s\.\1, i\)" % (cons, cons), p.peek())
    if m:   # no switch at all: every IE goes to one list (VersionNotSupported*)
        p.next(); p.expect(r"\}")
        return [], ("app", m.group(1)), nilskip
    p.expect(r"switch i\.Type \{")
    cases = []
    dflt = ("drop",)
    while p.peek() != "}":
        y = p.next()
        while y.startswith("case ") and y.endswith(","):
            y += " " + p.next()
        if y.startswith("switch "): pass
        m = re.fullmatch(r"case ((?:ie\.\w+(?:, )?)+):", y)
        if m:
            act = parse_action(p, cons, None)
            for t in m.group(1).split(", "):
                cases.append((t[3:], act))
        elif y == "default:":
            dflt = parse_action(p, cons, None)
        else:
            raise Exception("switch " + y)
    p.next()  # } switch
    p.expect(r"\}")  # for
    return cases, dflt, nilskip

def parse_marshal_fields(p, cons, kind):
    """sequence of field blocks. kind: 'to' or 'len'. returns list of (field, multi, nilcheck)"""
    res = []
    while True:
        x = p.peek()
        if x is None: break
        m = re.fullmatch(r"if (\w+) := %s\.(\w+); \1 != nil \{" % cons, x)
        if m:
            p.next(); v = m.group(1)
            if kind == "to":
                p.expect(r"if err := %s\.MarshalTo\(%s\.(?:Header\.)?Payload\[offset:\]\); err != nil \{" % (v, cons))
                p.expect(r"return err"); p.expect(r"\}")
                if p.peek() != "}":
                    p.expect(r"offset \+= %s\.MarshalLen\(\)" % v)
                    adv = True
                else:
                    adv = False
            else:
                p.expect(r"l \+= %s\.MarshalLen\(\)" % v); adv = True
            p.expect(r"\}")
            res.append((m.group(2), False, True, adv))
            continue
        m = re.fullmatch(r"for _, (\w+) := range %s\.(\w+) \{" % cons, x)
        if m:
            p.next(); v = m.group(1)
            nc = False
            if p.peek() == "if %s == nil {" % v:
                p.next(); p.expect("continue"); p.expect(r"\}"); nc = True
            if kind == "to":
                p.expect(r"if err := %s\.MarshalTo\(%s\.(?:Header\.)?Payload\[offset:\]\); err != nil \{" % (v, cons))
                p.expect(r"return err"); p.expect(r"\}")
                if p.peek() != "}":
                    p.expect(r"offset \+= %s\.MarshalLen\(\)" % v); adv = True
                else: adv = False
            else:
                p.expect(r"l \+= %s\.MarshalLen\(\)" % v); adv = True
            p.expect(r"\}")
            res.append((m.group(2), True, nc, adv))
            continue
        break
    return res

def extract_message(path, name):
    lines = read(path)
    out = {"name": name, "file": path[len(REPO) + 1:]}
    # struct
    s = func_body(lines, r"type %s struct \{" % name)
    fields = []
    for l in s[2][1:-1]:
        l = l.strip()
        if not l or l.startswith("//") or l == "*Header":
            continue
        m = re.match(r"((?:\w+, )*\w+)\s+(\[\])?\*ie\.IE", l)
        if not m: raise Exception("field %r in %s" % (l, path))
        for fn in m.group(1).split(", "):
            fields.append((fn, bool(m.group(2))))
    out["fields"] = fields
    # New
    f = func_body(lines, r"func New%s\(" % name)
    out["newLines"] = (f[0], f[1])
    sig = f[2][0]
    out["newSig"] = sig
    body = [x for x in f[2]]
    txt = " ".join(x.strip() for x in body)
    m = re.search(r"(\w) := &%s\{ Header: NewHeader\((.*?)\),? \}" % name, txt)
    if not m: raise Exception("New header %s: %s" % (path, txt[:300]))
    cons = m.group(1)
    out["hdr"] = [a.strip() for a in re.split(r",(?![^(]*\))", m.group(2)) if a.strip()]
    p = P(body)
    while not p.peek().startswith("for _, i := range"):
        p.next()
    out["newCases"], out["newDefault"], out["newNil"] = parse_switch(p, cons)
    rest = []
    while p.peek() is not None: rest.append(p.next())
    if rest != ["%s.SetLength()" % cons, "return %s" % cons, "}"]:
        raise Exception("New tail %s %s" % (path, rest))
    # Marshal
    f = func_body(lines, r"func \(\w+ \*%s\) Marshal\(\)" % name)
    c2 = re.match(r"func \((\w+) ", f[2][0]).group(1)
    mt = " ".join(x.strip() for x in f[2][1:] if x.strip())
    if mt != "b := make([]byte, %s.MarshalLen()) if err := %s.MarshalTo(b); err != nil { return nil, err } return b, nil }" % (c2, c2):
        raise Exception("Marshal %s %s" % (path, mt))
    # MarshalTo
    f = func_body(lines, r"func \(\w+ \*%s\) MarshalTo\(" % name)
    out["toLines"] = (f[0], f[1])
    c2 = re.match(r"func \((\w+) ", f[2][0]).group(1)
    p = P(f[2][1:])
    out["toReset"] = False
    out["toLenCheck"] = False
    if p.peek() == "if len(b) < %s.MarshalLen() {" % c2:
        p.next(); out["toLenCheck"] = True; out["toLenErr"] = p.next(); p.expect(r"\}")
    if p.peek() == "if %s.Header.Payload != nil {" % c2:
        p.next(); p.expect(r"%s\.Header\.Payload = nil" % c2); p.expect(r"\}"); out["toReset"] = True
    p.expect(r"%s\.Header\.Payload = make\(\[\]byte, %s\.MarshalLen\(\)-%s\.Header\.MarshalLen\(\)\)" % (c2, c2, c2))
    p.expect(r"offset := 0")
    out["to"] = parse_marshal_fields(p, c2, "to")
    rest = []
    while p.peek() is not None: rest.append(p.next())
    if rest != ["%s.Header.SetLength()" % c2, "return %s.Header.MarshalTo(b)" % c2, "}"]:
        raise Exception("MarshalTo tail %s %s" % (path, rest))
    # Unmarshal
    f = func_body(lines, r"func \(\w+ \*%s\) UnmarshalBinary\(" % name)
    out["unLines"] = (f[0], f[1])
    c2 = re.match(r"func \((\w+) ", f[2][0]).group(1)
    p = P(f[2][1:])
    p.expect("var err error")
    p.expect(r"%s\.Header, err = ParseHeader\(b\)" % c2)
    p.expect(r"if err != nil \{"); p.expect(r"return (?:err|fmt\.Errorf\(.*, err\))"); p.expect(r"\}")
    out["unEarly"] = False
    if p.peek() == "if len(%s.Header.Payload) < 2 {" % c2:
        p.next(); p.expect("return nil"); p.expect(r"\}"); out["unEarly"] = True
    p.expect(r"(?:ies|decodedIEs|ie), err := ie\.ParseMultiIEs\(%s\.(?:Header\.)?Payload\)" % c2)
    p.expect(r"if err != nil \{")
    out["unSwallow"] = False
    if p.peek() == "if errors.Is(err, ErrTooShortToParse) {":
        p.next(); p.expect("return nil"); p.expect(r"\}"); out["unSwallow"] = True
    p.expect("return err"); p.expect(r"\}")
    out["unCases"], out["unDefault"], out["unNil"] = parse_switch(p, c2)
    rest = []
    while p.peek() is not None: rest.append(p.next())
    if rest != ["return nil", "}"]:
        raise Exception("Unmarshal tail %s %s" % (path, rest))
    # MarshalLen
    f = func_body(lines, r"func \(\w+ \*%s\) MarshalLen\(\)" % name)
    out["lenLines"] = (f[0], f[1])
    c2 = re.match(r"func \((\w+) ", f[2][0]).group(1)
    p = P(f[2][1:])
    p.expect(r"l := %s\.Header\.MarshalLen\(\) - len\(%s\.Header\.Payload\)" % (c2, c2))
    out["len"] = parse_marshal_fields(p, c2, "len")
    rest = []
    while p.peek() is not None: rest.append(p.next())
    if rest != ["return l", "}"]:
        raise Exception("MarshalLen tail %s %s" % (path, rest))
    f = func_body(lines, r"func \(\w+ \*%s\) SetLength\(\)" % name)
    out["setLength"] = [x.strip() for x in f[2][1:-1] if x.strip() and not x.strip().startswith("//")]
    out["setLines"] = (f[0], f[1])
    return out

def main():
    allm = {}
    for v in ("gtpv0", "gtpv1", "gtpv2"):
        d = "%s/%s/message" % (REPO, v)
        ms = []
        for fn in sorted(os.listdir(d)):
            if not fn.endswith(".go") or fn.endswith("_test.go") or "deprecated" in fn: continue
            if fn in ("message.go", "header.go", "errors.go", "generic.go", "extension-header.go", "t-pdu.go"): continue
            path = d + "/" + fn
            lines = read(path)
            names = [m.group(1) for l in lines for m in [re.match(r"type (\w+) struct \{", l)] if m]
            for n in names:
                try:
                    ms.append(extract_message(path, n))
                except Exception as e:
                    print("ERR", path, n, e, file=sys.stderr)
        allm[v] = ms
    return allm

if __name__ == "__main__":
    a = main()
    json.dump(a, open("/tmp/msgs.json", "w"), indent=1)
    for v in a:
        print(v, len(a[v]))
