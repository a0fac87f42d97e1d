#!/usr/bin/env python3
"""Writes lean/Verif/Spec/Meta31.lean from /repo/resources/schema/openapi31.json. Anything that is not known stops the
tool."""
import json, os, re

SRC = "/repo/resources/schema/openapi31.json"
OUT = os.path.join(os.path.dirname(os.path.abspath(__file__)), "..", "lean", "Verif", "Spec", "Meta31.lean")
DROP = {"$comment", "description", "$id", "$schema", "$dynamicAnchor", "$defs"}
NOTE = {"format", "default"}
PATS = {"^x-": "x", "^[1-5](?:[0-9]{2}|XX)$": "status", "^/": "slash",
  "^(schemas|responses|parameters|examples|requestBodies|headers|securitySchemes|links|callbacks|pathItems)$": "component"}
STRS = {"^3\\.1\\.\\d+(-.+)?$": "version", "^[a-zA-Z0-9._-]+$": "name", "[^/#?]+$": "plain", "^[Bb][Ee][Aa][Rr][Ee][Rr]$": "bearer"}
TYPES = {"object", "array", "string", "boolean"}
OBJ = ("properties", "patternProperties", "additionalProperties")

d = json.load(open(SRC))
assert d["$defs"]["schema"].get("$dynamicAnchor") == "meta"

def q(s): return '"' + s.replace("\\", "\\\\").replace('"', '\\"') + '"'
def const(v):
    if isinstance(v, bool): return "(.bool %s)" % str(v).lower()
    if isinstance(v, str): return "(.str %s)" % q(v)
    raise SystemExit("value %r" % (v,))
def ref(r):
    assert r.startswith("#/$defs/")
    n = r[len("#/$defs/"):]
    assert n in names, n
    return n

def sch(s, top=False):
    if s is True: return ".all []"
    assert isinstance(s, dict), s
    ks = []
    closed = False
    done = set()
    for k, v in s.items():
        if k in done: continue
        if k in DROP and (k != "description" or isinstance(v, str)): continue
        if k in NOTE: ks.append(".note %s" % q("%s: %s" % (k, json.dumps(v))))
        elif k == "unevaluatedProperties":
            assert v is False
            closed = True
        elif k == "$ref": ks.append(".ref %s" % q(ref(v)))
        elif k == "$dynamicRef":
            assert v == "#meta"
            ks.append(".ref %s" % q("schema"))
        elif k == "type":
            ts = v if isinstance(v, list) else [v]
            assert set(ts) <= TYPES
            ks.append(".type [%s]" % ", ".join(map(q, ts)))
        elif k == "enum": ks.append(".enum [%s]" % ", ".join(map(const, v)))
        elif k == "const": ks.append(".enum [%s]" % const(v))
        elif k == "pattern": ks.append(".pattern .%s" % STRS[v])
        elif k == "required": ks.append(".required [%s]" % ", ".join(map(q, v)))
        elif k in OBJ:
            done |= set(OBJ)
            ps = ["(%s, %s)" % (q(n), sch(x)) for n, x in s.get("properties", {}).items()]
            qs = ["(.%s, %s)" % (PATS[n], sch(x)) for n, x in s.get("patternProperties", {}).items()]
            a = "(some (%s))" % sch(s["additionalProperties"]) if "additionalProperties" in s else "none"
            ind = "\n    " if len(ps) > 2 else ""
            ks.append(".object [%s%s] [%s] %s" % (ind, (",\n    " if ind else ", ").join(ps), ", ".join(qs), a))
        elif k == "propertyNames": ks.append(".propertyNames (%s)" % sch(v))
        elif k == "minProperties": ks.append(".minProps %d" % v)
        elif k == "maxProperties": ks.append(".maxProps %d" % v)
        elif k == "items": ks.append(".items (%s)" % sch(v))
        elif k == "minItems": ks.append(".minItems %d" % v)
        elif k in ("oneOf", "anyOf", "allOf"): ks.append(".%s [%s]" % (k, ", ".join(map(sch, v))))
        elif k == "not": ks.append(".not (%s)" % sch(v))
        elif k == "if":
            done |= {"then", "else"}
            ks.append(".ite (%s) (%s) (%s)" % (sch(v), sch(s.get("then", True)), sch(s.get("else", True))))
        elif k == "dependentSchemas":
            ks.append(".dependent [%s]" % ", ".join("(%s, %s)" % (q(n), sch(x)) for n, x in v.items()))
        else: raise SystemExit("unknown keyword %s" % k)
    if not closed and len(ks) == 1 and ks[0].startswith(".ref "): return ks[0]
    # the type first
    ks.sort(key=lambda k: 0 if k.startswith(".type") else 1 if k.startswith(".object") else 2)
    return ".%s [%s]" % ("closed" if closed else "all", ", ".join(ks))

def nested(path, s):
    """the `$defs` inside"""
    if isinstance(s, dict):
        for k, v in s.items():
            if k == "$defs" and path:
                for n, x in v.items(): yield "/".join(path + ["$defs", n]), x
            yield from nested(path + [k], v)
    elif isinstance(s, list):
        for i, x in enumerate(s): yield from nested(path + [str(i)], x)

defs = []
for n, s in d["$defs"].items():
    defs += list(nested([n], s)) + [(n, s)]
names = {n for n, _ in defs}
defs.append(("OpenAPI", d))
def lean(n):
    return "m" + "".join(p[:1].upper() + p[1:] for p in re.split(r"[-/$]", n) if p not in ("defs", "dependentSchemas", ""))
ls = [lean(n) for n, _ in defs]
assert len(set(ls)) == len(ls)
out = ["import Verif.Spec.Meta2020", "",
 "/-!", "# The meta-schema of OpenAPI 3.1", "",
 "`/repo/resources/schema/openapi31.json`, written by `/verif/tools/metaschema31.py`. `OpenAPI` is the schema of the",
 "document, the others are its definitions. `$dynamicRef: #meta` is a reference to `schema`, the only place with that",
 "anchor.", "-/", "", "namespace Verif.Meta31", ""]
for n, s in defs:
    out.append("/-- `%s` -/" % n)
    out.append("def %s : Sch :=\n  %s" % (lean(n), sch(s)))
    out.append("")
out.append("/-- The meta-schema. -/")
out.append("def defs31 : Defs := [\n  %s]" % ",\n  ".join("(%s, %s)" % (q(n), lean(n)) for n, _ in defs))
out.append("")
out.append("end Verif.Meta31")
open(OUT, "w").write("\n".join(out) + "\n")
