#!/usr/bin/env python3
"""Writes lean/Verif/Spec/Meta30.lean from /repo/resources/schema/openapi3.json.

Annotations are dropped. Keywords that the library leaves to the author of a document become `skip`. Anything
else that is not known stops the tool."""
import json, os

SRC = "/repo/resources/schema/openapi3.json"
OUT = os.path.join(os.path.dirname(os.path.abspath(__file__)), "..", "lean", "Verif", "Spec", "Meta30.lean")
ANNOTATIONS = {"title", "description", "examples", "default", "id", "$schema", "x-go-type"}
SKIP = {"format", "pattern", "minimum", "exclusiveMinimum", "uniqueItems", "minProperties", "maxProperties"}
PATS = {"^x-": "x", "^(get|put|post|delete|options|head|patch|trace)$": "methods", "^[1-5](?:\\d{2}|XX)$": "status",
        "^\\/": "slash", "^[a-zA-Z0-9\\.\\-_]+$": "name"}
# keywords of definitions that are left to the author
SKIP_AT = {
    ("MediaType", "allOf"): "allOf: ExampleXORExamples",
    ("Header", "allOf"): "allOf: ExampleXORExamples, SchemaXORContent",
    ("Parameter", "allOf", 0): "ExampleXORExamples",
    ("SchemaXORContent", "oneOf", 1, "allOf"): "allOf: no style, explode, allowReserved, example, examples",
}

def q(s): return '"' + s.replace("\\", "\\\\").replace('"', '\\"') + '"'
def const(v):
    if isinstance(v, bool): return "(.bool %s)" % str(v).lower()
    if isinstance(v, str): return "(.str %s)" % q(v)
    raise SystemExit("enum value %r" % (v,))

def only_patterns(s):
    if isinstance(s, list): return all(only_patterns(x) for x in s)
    return bool(s) and all(k == "pattern" or (k == "not" and only_patterns(v)) for k, v in s.items())

def sch(s, at):
    if at in SKIP_AT: return ".skip %s" % q(SKIP_AT[at])
    if "$ref" in s:
        assert len(s) == 1, s
        assert s["$ref"].startswith("#/definitions/")
        return ".ref %s" % q(s["$ref"][len("#/definitions/"):])
    ks = []
    done = set()
    for k, v in s.items():
        if k in done: continue
        if k in ANNOTATIONS and not (k == "default" and at == ()): continue
        if at + (k,) in SKIP_AT: ks.append(".skip %s" % q(SKIP_AT[at + (k,)]))
        elif k in SKIP: ks.append(".skip %s" % q("%s: %s" % (k, json.dumps(v))))
        elif k == "definitions" and at == ("OpenAPI",): continue
        elif k == "type": ks.append(".type %s" % q(v))
        elif k == "enum": ks.append(".enum [%s]" % ", ".join(map(const, v)))
        elif k == "required": ks.append(".required [%s]" % ", ".join(map(q, v)))
        elif k in ("properties", "patternProperties", "additionalProperties"):
            done |= {"properties", "patternProperties", "additionalProperties"}
            ps = ["(%s, %s)" % (q(n), sch(x, at + ("properties", n))) for n, x in s.get("properties", {}).items()]
            qs = ["(.%s, %s)" % (PATS[n], sch(x, at + ("patternProperties", n)))
                  for n, x in s.get("patternProperties", {}).items()]
            a = s.get("additionalProperties", True)
            a = "none" if a is True else "(some .never)" if a is False else "(some (%s))" % sch(a, at + ("additionalProperties",))
            ind = "\n    " if len(ps) > 2 else ""
            ks.append(".object [%s%s] [%s] %s" % (ind, (",\n    " if ind else ", ").join(ps), ", ".join(qs), a))
        elif k == "items": ks.append(".items (%s)" % sch(v, at + (k,)))
        elif k == "minItems": ks.append(".minItems %d" % v)
        elif k == "oneOf" and only_patterns(v): ks.append(".skip %s" % q("oneOf: %s" % json.dumps(v)))
        elif k in ("oneOf", "allOf"):
            ks.append(".%s [%s]" % (k, ", ".join(sch(x, at + (k, i)) for i, x in enumerate(v))))
        elif k == "not": ks.append(".not (%s)" % sch(v, at + (k,)))
        else: raise SystemExit("unknown keyword %s at %r" % (k, at))
    return ".all [%s]" % ", ".join(ks)

d = json.load(open(SRC))
defs = [("OpenAPI", d)] + list(d["definitions"].items())
out = ["import Verif.Spec.Meta", "",
 "/-!", "# The meta-schema of OpenAPI 3.0", "",
 "`/repo/resources/schema/openapi3.json`, written by `/verif/tools/metaschema.py`. `OpenAPI` is the schema of the",
 "document, the others are its definitions. What is left out, and thus left to the author of a document, is `skip`:",
 "formats, patterns of strings, numeric bounds, numbers of members, uniqueness of elements, that a value does not have",
 "both an example and examples, that a header has either a schema or content, and what may not stand next to the content",
 "of a parameter.", "-/", "", "namespace Verif.Meta", ""]
def size(s): return len(s)
for n, s in defs:
    t = sch(s, (n,))
    out.append("/-- `%s` -/" % n)
    out.append("def m%s : Sch :=\n  %s" % (n, t))
    out.append("")
out.append("/-- The meta-schema. -/")
out.append("def defs30 : Defs := [\n  %s]" % ",\n  ".join("(%s, m%s)" % (q(n), n) for n, _ in defs))
out.append("")
out.append("end Verif.Meta")
open(OUT, "w").write("\n".join(out) + "\n")
