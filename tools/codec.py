#!/usr/bin/env python3
"""Extracts the type tables of Verif/Codec/Table30.lean and Table31.lean from entities.go.

Every UnmarshalJSON and MarshalJSON body is consumed block by block; a block that is not one of the
known shapes stops the script, so the tables cover everything these functions do.
"""
import re, sys, json, os

def die(*a):
    print("codec.py:", *a, file=sys.stderr); sys.exit(1)

def split_blocks(body):
    """Top-level statements, separated by blank lines at depth one; nested blank lines stay inside."""
    blocks, cur, depth = [], [], 0
    for line in body.split("\n"):
        if line.strip() == "" and depth == 0:
            if cur: blocks.append("\n".join(cur)); cur = []
            continue
        s = re.sub(r'`[^`]*`|"(?:\\.|[^"\\])*"', '', line)
        depth += s.count("{") - s.count("}") + s.count("(") - s.count(")")
        cur.append(line)
    if cur: blocks.append("\n".join(cur))
    return blocks

def norm(s):
    return re.sub(r"\s+", " ", s).strip()

def parse(path):
    src = open(path).read()
    lines = src.split("\n")
    lineof = lambda pos: src.count("\n", 0, pos) + 1
    types, order = {}, []
    # struct types
    for m in re.finditer(r"^type (\w+) struct ?\{(?:\}|\n(.*?)^\})", src, re.M | re.S):
        name, body = m.group(1), m.group(2) or ""
        t = dict(kind="struct", name=name, line=lineof(m.start()), fields=[], hidden=[], body=body)
        for l in body.split("\n"):
            l = l.split("//")[0].strip()
            if not l: continue
            fm = re.match(r'^(\w+)\s+(\S+)\s+`json:"([^"]*)"`$', l)
            if not fm: die("field", name, l)
            go, ty, tag = fm.groups()
            if tag == "-": t["hidden"].append((go, ty))
            else:
                key, *opts = tag.split(",")
                if opts not in ([], ["omitempty"]): die("tag", tag)
                t["fields"].append((go, key, ty, bool(opts)))
        types[name] = t; order.append(name)
    # enums
    for m in re.finditer(r"^type (\w+) string$", src, re.M):
        types[m.group(1)] = dict(kind="enum", name=m.group(1), line=lineof(m.start())); order.append(m.group(1))
    def strlist(var):
        m = re.search(r"^var %s = \[\]string\{(.*?)\n\}" % var, src, re.M | re.S)
        if not m: die("list", var)
        return re.findall(r'"([^"]*)"', m.group(1))
    consts = {m.group(1): m.group(2) for m in re.finditer(r'^\t(\w+)\s*= \w+\("([^"]*)"\)$', src, re.M)}
    regexes = {}
    for m in re.finditer(r'^\t(regex\w*)\s*= regexp\.MustCompile\((?:"([^"]*)"|`([^`]*)`)\)', src, re.M):
        regexes[m.group(1)] = m.group(2) or m.group(3)
    funcs = {}
    for m in re.finditer(r"^func \((\w+) \*?(\w+)\) (Unm|M)arshalJSON\([^\n]*\{\n(.*?)^\}", src, re.M | re.S):
        funcs[(m.group(2), m.group(3))] = (m.group(1), re.sub(r"(?m)^\t", "", m.group(4)), lineof(m.start()), lineof(m.end()))
    for name in order:
        t = types[name]
        t["unm"] = funcs.get((name, "Unm")); t["mar"] = funcs.get((name, "M"))
        if t["kind"] == "enum":
            vals = []
            for which in ("Unm", "M"):
                if which == "Unm": recv, body, a, b = t["unm"]
                else: recv, body, a, b = t["mar"]
                cases = re.findall(r"case (\w+):", body)
                vs = [consts[c] for c in cases]
                vals.append(vs)
                if which == "Unm":
                    exp = ["var ii string", "err := json.Unmarshal(data, &ii) if err != nil { return err }",
                           "v := %s(ii)" % name,
                           "switch v { " + " ".join("case %s:" % c for c in cases) + ' default: return fmt.Errorf("unexpected %s value: %%v", v) }' % name,
                           "*%s = v" % recv, "return nil"]
                else:
                    exp = ["switch %s { " % recv + " ".join("case %s:" % c for c in cases) + ' default: return nil, fmt.Errorf("unexpected %s value: %%v", %s) }' % (name, recv),
                           "return json.Marshal(string(%s))" % recv]
                got = [norm(x) for x in split_blocks(body)]
                if got != exp: die("enum", name, got, exp)
            if vals[0] != vals[1]: die("enum values differ", name)
            t["values"] = vals[0]
            continue
        d = dict(nots=[], decodes=False, embeds=[], oneOf=[], require=[], consts=[], notConsts=[], forbid=[], nulls=[],
                 known=[], patterns=[], additional=None, strict=False, exactlyOne=[], lower=[], raw=False)
        t["d"] = d
        if t["unm"]:
            recv, body, a, b = t["unm"]
            tgt = recv
            blocks = split_blocks(body)
            i = 0
            def take(rx, flags=re.S):
                nonlocal i
                if i >= len(blocks): return None
                m = re.fullmatch(rx, norm(blocks[i]), flags)
                if m: i += 1
                return m
            ERR = r" if err != nil \{ return err \}"
            if not take(r"var err error"): die(name, blocks[0])
            while True:
                m = take(r"var not (\S+)")
                if not m: break
                if not take(r'if json\.Unmarshal\(data, &not\) == nil \{ return errors\.New\("not constraint failed for %s"\) \}' % name): die("not", name)
                d["nots"].append(m.group(1))
            m = take(r"(\w+) := marshal%s\(\*%s\)" % (name, recv))
            if m:
                tgt = m.group(1); d["decodes"] = True
                if not take(r"err = json\.Unmarshal\(data, &%s\)%s" % (tgt, ERR)): die("fields", name, blocks[i])
            while True:
                m = take(r"err = json\.Unmarshal\(data, &%s\.(\w+)\)%s" % (tgt, ERR))
                if not m: break
                d["embeds"].append(m.group(1))
            m = take(r"oneOfErrors := make\(map\[string\]error, (\d+)\) oneOfValid := 0")
            if m:
                n = int(m.group(1))
                while True:
                    m = take(r'err = json\.Unmarshal\(data, &%s\.(\w+)\) if err != nil \{ oneOfErrors\["(\w+)"\] = err %s\.(\w+) = nil \} else \{ oneOfValid\+\+ \}' % (tgt, tgt))
                    if not m: break
                    if m.group(1) != m.group(3): die("oneOf", name)
                    d["oneOf"].append(m.group(1))
                if len(d["oneOf"]) != n: die("oneOf count", name)
                if not take(r'if oneOfValid != 1 \{ return fmt\.Errorf\("oneOf constraint failed for %s with %%d valid results: %%v", oneOfValid, oneOfErrors\) \}' % name): die("oneOf end", name)
            if take(r"var rawMap map\[string\]json\.RawMessage"):
                d["raw"] = True
                if not take(r"err = json\.Unmarshal\(data, &rawMap\) if err != nil \{ rawMap = nil \}"): die("raw", name)
            while i < len(blocks):
                if take(r'for _, key := range requireKeys%s \{ if _, found := rawMap\[key\]; !found \{ return errors\.New\("required key missing: " \+ key\) \} \}' % name):
                    d["require"] = strlist("requireKeys" + name); continue
                m = take(r'if v, exists := rawMap\["(\S+)"\]; exists && string\(v\) != (`"([^`"]*)"`|"true") \{ return fmt\.Errorf\(`bad const value for "\1" \([^`]*\)`, v\) \}')
                if m:
                    d["consts"].append((m.group(1), m.group(3) if m.group(3) is not None else True))
                    continue
                m = take(r'if v, exists := rawMap\["(\S+)"\]; exists && string\(v\) == `"([^`"]*)"` \{ return fmt\.Errorf\(`bad const value for "\1" \([^`]*\)`, v\) \}')
                if m: d["notConsts"].append((m.group(1), m.group(2))); continue
                m = take(r'if _, exists := rawMap\["(\w+)"\]; exists \{ return errors\.New\(`property "\1" should not exist`\) \}')
                if m: d["forbid"].append(m.group(1)); continue
                m = take(r'delete\(rawMap, "(\w+)"\)')
                if m: d.setdefault("deletes", []).append(m.group(1)); continue
                m = take(r'if %s\.(\w+) == nil \{ if _, ok := rawMap\["(\w+)"\]; ok \{ var v interface\{\} %s\.\1 = &v \} \}' % (tgt, tgt))
                if m: d["nulls"].append((m.group(1), m.group(2))); continue
                if take(r"for _, key := range knownKeys%s \{ delete\(rawMap, key\) \}" % name):
                    d["known"] = strlist("knownKeys" + name); continue
                m = take(r"for key, rawValue := range rawMap \{ matched := false (.*) if matched \{ delete\(rawMap, key\) \} \}")
                if m:
                    rest = m.group(1).strip()
                    while rest:
                        mm = re.match(r"if (?:(regex\w*)\.MatchString\(key\)|strings\.HasPrefix\(key, \"(x-)\"\)) \{ matched = true if %s\.(\w+) == nil \{ %s\.\3 = make\(map\[string\](\S+), 1\) \} var val (\S+) err = json\.Unmarshal\(rawValue, &val\)%s %s\.\3\[key\] = val \}" % (tgt, tgt, ERR, tgt), rest)
                        if not mm: die("pattern", name, rest)
                        if mm.group(4) != mm.group(5): die("pattern type", name)
                        d["patterns"].append((regexes[mm.group(1)] if mm.group(1) else "^x-", mm.group(3), mm.group(4)))
                        rest = rest[mm.end():].strip()
                    continue
                m = take(r"for key, rawValue := range rawMap \{ if %s\.(\w+) == nil \{ %s\.\1 = make\(map\[string\](\S+), 1\) \} var val (\S+) err = json\.Unmarshal\(rawValue, &val\)%s %s\.\1\[key\] = val \}" % (tgt, tgt, ERR, tgt))
                if m:
                    if m.group(2) != m.group(3): die("additional", name)
                    d["additional"] = (m.group(1), m.group(2)); continue
                if take(r'if len\(rawMap\) != 0 \{ offendingKeys := make\(\[\]string, 0, len\(rawMap\)\) for key := range rawMap \{ offendingKeys = append\(offendingKeys, key\) \} return fmt\.Errorf\("additional properties not allowed in %s: %%v", offendingKeys\) \}' % name):
                    d["strict"] = True; continue
                if tgt != recv and take(r"\*%s = %s\(%s\)" % (recv, name, tgt)):
                    d["assigned"] = True
                    continue
                if take(r"return nil"): continue
                if take(r'_, schemaExists := rawMap\["schema"\] _, contentExists := rawMap\["content"\] if schemaExists && contentExists \{ return fmt\.Errorf\("both schema and content are set, only one of them is allowed"\) \} else if !schemaExists && !contentExists \{ return fmt\.Errorf\("schema or content are expected"\) \}'):
                    d["exactlyOne"] = ["schema", "content"]; continue
                m = take(r'if strings\.ToLower\(%s\.(\w+)\) (==|!=) "bearer" \{ return errors\.New\("[^"]*"\) \}' % tgt)
                if m: d["lower"].append((m.group(1), m.group(2) == "!=", "bearer")); continue
                die("unknown block", name, repr(norm(blocks[i])))
            if [k for k, _ in d["consts"]] + [k for k, _ in d["notConsts"]] != d.get("deletes", []): die("deletes", name, d)
            if tgt != recv and not d.get("assigned"): die("not assigned", name)
        # marshal
        parts = []
        if t["mar"]:
            recv, body, a, b = t["mar"]
            m = re.fullmatch(r"return marshalUnion\((.*)\)", norm(body))
            if not m: die("marshal", name, body)
            for part in m.group(1).split(", "):
                if part == "const" + name:
                    cm = re.search(r"^var const%s = json\.RawMessage\(`(.*)`\)" % name, src, re.M)
                    parts.append(("const", json.loads(cm.group(1))))
                elif part == "marshal%s(%s)" % (name, recv): parts.append(("fields",))
                elif re.fullmatch(r"%s\.(\w+)" % recv, part): parts.append(("field", part.split(".")[1]))
                else: die("part", name, part)
        else: parts = None
        t["parts"] = parts
    return types, order, regexes

PATS = {"^x-": ".x", "^(get|put|post|delete|options|head|patch|trace)$": ".methods",
        "^[1-5](?:\\d{2}|XX)$": ".status", "^[1-5](?:[0-9]{2}|XX)$": ".status",
        "^\\/": ".slash", "^/": ".slash", "^[a-zA-Z0-9\\.\\-_]+$": ".name"}

def emit(pkg, out, ns):
    path = "/repo/%s/entities.go" % pkg
    types, order, rx = parse(path)
    for r in rx.values():
        if r not in PATS: die("regex", r)
    q = lambda s: json.dumps(s)
    def ty(t):
        if t == "interface{}": return ".any"
        if t == "string": return ".str"
        if t == "bool": return ".bool"
        if t == "int64": return ".int"
        if t == "float64": return ".float"
        def sub(s, c):
            u = ty(s)
            return "(%s %s)" % (c, u)
        if t.startswith("*"): return sub(t[1:], ".ptr")
        if t.startswith("[]"): return sub(t[2:], ".slice")
        if t.startswith("map[string]"): return sub(t[len("map[string]"):], ".map")
        if t in types: return "(.named %s)" % q(t)
        die("type", t)
    const = lambda v: "(.bool true)" if v is True else "(.str %s)" % q(v)
    L = []
    L.append("import Verif.Codec.Basic\n")
    L.append("/-! The named types of `%s`. Written by `/verif/tools/codec.py`. -/\n" % path)
    L.append("namespace Verif.Codec.%s\n" % ns)
    for n in order:
        t = types[n]
        cite = ["type at line %d" % t["line"]]
        if t["unm"]: cite.append("`UnmarshalJSON` at lines %d-%d" % t["unm"][2:])
        if t["mar"]: cite.append("`MarshalJSON` at lines %d-%d" % t["mar"][2:])
        L.append("/-- `%s` of `%s`: %s. -/" % (n, path, ", ".join(cite)))
        if t["kind"] == "enum":
            L.append("def d%s : Desc := .enum [%s]\n" % (n, ", ".join(map(q, t["values"]))))
            continue
        d = t["d"]; hid = dict(t["hidden"])
        skip = {"ReflectType"}
        L.append("def s%s : Struct where" % n)
        if d["nots"]: L.append("  nots := [%s]" % ", ".join(ty(x) for x in d["nots"]))
        if t["fields"]:
            L.append("  fields := [")
            L.append(",\n".join("    ⟨%s, %s, %s, %s⟩" % (q(g), q(k), ty(ft), "true" if o else "false") for g, k, ft, o in t["fields"]) + "]")
        if d["decodes"] or not t["unm"]: L.append("  decodes := true")
        seen = set()
        h = lambda g: (seen.add(g), "⟨%s, %s⟩" % (q(g), ty(hid[g])))[1]
        if d["embeds"]: L.append("  embeds := [%s]" % ", ".join(map(h, d["embeds"])))
        if d["oneOf"]: L.append("  oneOf := [%s]" % ", ".join(map(h, d["oneOf"])))
        if d["require"]: L.append("  require := [%s]" % ", ".join(map(q, d["require"])))
        if d["exactlyOne"]: L.append("  exactlyOne := some (%s)" % ", ".join(map(q, d["exactlyOne"])))
        if d["consts"]: L.append("  consts := [%s]" % ", ".join("(%s, %s)" % (q(k), const(v)) for k, v in d["consts"]))
        if d["notConsts"]: L.append("  notConsts := [%s]" % ", ".join("(%s, %s)" % (q(k), const(v)) for k, v in d["notConsts"]))
        if d["forbid"]: L.append("  forbid := [%s]" % ", ".join(map(q, d["forbid"])))
        if d["lower"]: L.append("  lower := [%s]" % ", ".join("⟨%s, %s, %s⟩" % (q(g), "true" if m else "false", q(v)) for g, m, v in d["lower"]))
        if d["nulls"]: L.append("  nulls := [%s]" % ", ".join("(%s, %s)" % (q(g), q(k)) for g, k in d["nulls"]))
        if d["known"]: L.append("  known := [%s]" % ", ".join(map(q, d["known"])))
        if d["patterns"]:
            for r, g, et in d["patterns"]:
                if hid[g] != "map[string]" + et: die("pattern field type", n, g)
                seen.add(g)
            L.append("  patterns := [%s]" % ", ".join("⟨%s, %s, %s⟩" % (PATS[r], q(g), ty(et)) for r, g, et in d["patterns"]))
        if d["additional"]:
            g, et = d["additional"]
            if hid[g] != "map[string]" + et: die("additional field type", n, g)
            seen.add(g)
            L.append("  additional := some ⟨%s, %s⟩" % (q(g), ty(et)))
        if d["strict"]: L.append("  strict := true")
        if set(hid) - seen - skip: die("field of no block", n, set(hid) - seen)
        if t["mar"]:
            ps = []
            for p in t["parts"]:
                if p[0] == "const": ps.append(".consts [%s]" % ", ".join("(%s, %s)" % (q(k), const(v)) for k, v in p[1].items()))
                elif p[0] == "fields": ps.append(".fields")
                else: ps.append(".hidden %s" % q(p[1]))
            L.append("  parts := [%s]" % ", ".join(ps))
        if L[-1].startswith("def "): L[-1] = "def s%s : Struct := {}" % n
        L.append("")
    L.append("/-- The named types of the package. -/")
    L.append("def table : Table := [")
    L.append(",\n".join("  (%s, %s)" % (q(n), "d" + n if types[n]["kind"] == "enum" else ".struct s" + n) for n in order) + "]\n")
    L.append("end Verif.Codec.%s" % ns)
    open(out, "w").write("\n".join(L) + "\n")

if __name__ == "__main__":
    here = os.path.dirname(os.path.abspath(__file__))
    emit("openapi3", os.path.join(here, "../lean/Verif/Codec/Table30.lean"), "V30")
    emit("openapi31", os.path.join(here, "../lean/Verif/Codec/Table31.lean"), "V31")
