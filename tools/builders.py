#!/usr/bin/env python3
"""Extracts the tables of builder methods (Verif/Codec/Builders30.lean, Builders31.lean) from entities.go.

Every method of entities.go other than MarshalJSON and UnmarshalJSON is read; a body that is not one of four
shapes, or a signature that does not fit it, stops the script.
"""
import re, os, json
from codec_types import types_of, ty_of
def die(*a):
    raise SystemExit("builders.py: " + " ".join(map(str, a)))

def norm(s):
    return re.sub(r"\s+", " ", s).strip()

def parse(path):
    src = open(path).read()
    lineof = lambda pos: src.count("\n", 0, pos) + 1
    out = []
    heads = [m.start() for m in re.finditer(r"^func \(", src, re.M)]
    for h in heads:
        m = re.compile(r"func \((\w+) (\*?)(\w+)\) (\w+)\(([^\n]*)\) ([^\n]*) \{\n(.*?)^\}", re.M | re.S).match(src, h)
        if not m: die("method", src[h:h + 80])
        recv, star, typ, name, args, res, body = m.groups()
        if name in ("MarshalJSON", "UnmarshalJSON"): continue
        if star != "*": die("receiver", typ, name)
        body = norm(body)
        R = re.escape(recv)
        lines = (lineof(m.start()), lineof(m.end()))
        b = re.fullmatch(r"%s\.(\w+) = (&?)val return %s" % (R, R), body)
        if b:
            a = re.fullmatch(r"val (\.\.\.)?(\S+)", args)
            if not a or res != "*" + typ: die("signature", typ, name, args, res)
            t = ("[]" if a.group(1) else "") + a.group(2)
            out.append((typ, name, "setPtr" if b.group(2) else "set", b.group(1), t, lines)); continue
        b = re.fullmatch(r"if %s\.(\w+) == nil \{ %s\.\1 = make\(map\[string\](\S+), 1\) \} %s\.\1\[key\] = val return %s" % (R, R, R, R), body)
        if b:
            a = re.fullmatch(r"key string, val (\.\.\.)?(\S+)", args)
            if not a or res != "*" + typ: die("signature", typ, name, args, res)
            t = ("[]" if a.group(1) else "") + a.group(2)
            if t != b.group(2): die("item type", typ, name, t, b.group(2))
            out.append((typ, name, "item", b.group(1), t, lines)); continue
        b = re.fullmatch(r"if %s\.(\w+) == nil \{ %s\.\1 = new\((\S+)\) \} return %s\.\1" % (R, R, R), body)
        if b:
            if args != "" or res != "*" + b.group(2): die("signature", typ, name, args, res)
            out.append((typ, name, "ens", b.group(1), b.group(2), lines)); continue
        die("body", typ, name, body)
    return out

def emit(pkg, out, ns):
    path = "/repo/%s/entities.go" % pkg
    types = types_of(path)
    ms = parse(path)
    q = json.dumps
    L = ["import Verif.Codec.Builder\n",
         "/-! The builder methods of `%s`. Written by `/verif/tools/builders.py`. -/\n" % path,
         "namespace Verif.Codec.%s\n" % ns]
    byt = {}
    for m in ms: byt.setdefault(m[0], []).append(m)
    for t, l in byt.items():
        L.append("/-- The builder methods of `%s` (`%s:%d-%d`). -/" % (t, path, l[0][5][0], l[-1][5][1]))
        L.append("def b%s : List Builder := [" % t)
        L.append(",\n".join("  ⟨%s, %s, .%s, %s, %s⟩" % (q(t), q(n), k, q(f), ty_of(types, a)) for _, n, k, f, a, _ in l) + "]\n")
    L.append("/-- The builder methods of the package, by type. -/")
    L.append("def builders : GoMap (List Builder) := [")
    L.append(",\n".join("  (%s, b%s)" % (q(t), t) for t in byt) + "]\n")
    L.append("end Verif.Codec.%s" % ns)
    open(out, "w").write("\n".join(L) + "\n")

if __name__ == "__main__":
    here = os.path.dirname(os.path.abspath(__file__))
    for pkg, n, ns in (("openapi3", "30", "V30"), ("openapi31", "31", "V31")):
        emit(pkg, os.path.join(here, "../lean/Verif/Codec/Builders%s.lean" % n), ns)
