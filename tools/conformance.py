#!/usr/bin/env python3
"""Turns data of /repo's own tests into Lean modules under lean/Verif/Conformance.

The modules are tests of the model (does it compute what the Go tests expect?), not proofs of properties.

  tools/conformance.py            write the modules
  tools/conformance.py --big      also run the model on the two large documents of /repo/openapi3/testdata
                                  (interpreted, nothing is written)
"""
import json, os, re, subprocess, sys, tempfile

REPO = "/repo"
HERE = os.path.dirname(os.path.abspath(__file__))
LEAN = os.path.join(HERE, "..", "lean")
OUT = os.path.join(LEAN, "Verif", "Conformance")


def lstr(s):
    out = '"'
    for c in s:
        if c in '"\\':
            out += "\\" + c
        elif c == "\n":
            out += "\\n"
        elif c == "\t":
            out += "\\t"
        elif ord(c) < 32:
            out += "\\x%02x" % ord(c)
        else:
            out += c
    return out + '"'


class Obj(list):
    pass


class Num(str):
    pass


def parse(text):
    return json.loads(text, object_pairs_hook=Obj, parse_int=Num, parse_float=Num)


def lean(j):
    if j is None:
        return ".null"
    if isinstance(j, bool):
        return ".bool " + ("true" if j else "false")
    if isinstance(j, Num):
        return ".num " + lstr(j)
    if isinstance(j, str):
        return ".str " + lstr(j)
    if isinstance(j, Obj):
        return ".obj [" + ", ".join("(%s, %s)" % (lstr(k), lean(v)) for k, v in j) + "]"
    return ".arr [" + ", ".join(lean(x) for x in j) + "]"


def wrap(s, width=116, indent="    "):
    """Break a line at spaces outside string literals."""
    lines, cur, instr, esc, last = [], "", False, False, -1
    for c in s:
        cur += c
        if instr:
            if esc:
                esc = False
            elif c == "\\":
                esc = True
            elif c == '"':
                instr = False
        elif c == '"':
            instr = True
        elif c == " ":
            last = len(cur)
        if len(cur) > width and last > 0:
            lines.append(cur[:last].rstrip())
            cur = cur[last:]
            last = -1
    lines.append(cur)
    return ("\n" + indent).join(lines)


def line_of(text, pos):
    return text.count("\n", 0, pos) + 1


def entities():
    f = "openapi3/entities_test.go"
    t = open(os.path.join(REPO, f)).read()
    pat = re.compile(r"func (Test\w+_MarshalJSON_roundtrip).*?\[\]byte\(`(.*?)`\)\s*v\s+(\w+)", re.S)
    return [(m.group(1), "%s:%d" % (f, line_of(t, m.start())), m.group(3), parse(m.group(2))) for m in pat.finditer(t)]


def documents(version):
    """Every document an expectation of a test of this version holds."""
    d = "openapi3" if version == "30" else "openapi31"
    res = []
    for f in sorted(os.listdir(os.path.join(REPO, d))):
        if not f.endswith("_test.go"):
            continue
        t = open(os.path.join(REPO, d, f)).read()
        for m in re.finditer(r"`([^`]*)`", t):
            try:
                j = parse(m.group(1))
            except ValueError:
                continue
            if isinstance(j, Obj) and any(k == "openapi" for k, _ in j):
                res.append(("%s/%s:%d" % (d, f, line_of(t, m.start())), j))
    for f in sorted(os.listdir(os.path.join(REPO, d, "testdata"))):
        p = os.path.join(REPO, d, "testdata", f)
        if f.endswith(".json") and os.path.getsize(p) < 100000:
            j = parse(open(p).read())
            if isinstance(j, Obj) and any(k == "openapi" for k, _ in j):
                res.append(("%s/testdata/%s" % (d, f), j))
    seen, uniq = set(), []
    for where, j in res:
        key = json.dumps(j, sort_keys=True)
        if key not in seen:
            seen.add(key)
            uniq.append((where, j))
    return uniq


# Documents the code writes but cannot read, with the reason.
UNREADABLE = {
    "openapi3/helper_test.go:93": "a path parameter without `required: true`",
    "openapi31/reflect_test.go:1388": "an example that is no reference (C67)",
}


HEAD = "/-! Generated by `tools/conformance.py`. %s -/\n"


def write(name, text):
    with open(os.path.join(OUT, name + ".lean"), "w") as f:
        f.write(text)


def drop(j, path):
    """The value without the member at a path."""
    if len(path) == 1:
        return Obj([(k, v) for k, v in j if k != path[0]])
    return Obj([(k, drop(v, path[1:]) if k == path[0] else v) for k, v in j])


def expected():
    """Documents that the hand-written tests compare with."""
    t = "import Verif.Entities\n\n"
    t += HEAD % "Documents that tests of `/repo` expect."
    t += "\nnamespace Verif.Conformance.Expected\n\n"
    docs = {d: dict(documents(d)) for d in ("30", "31")}
    for name, d, where, note, dropped in [
        ("uncleanPath30", "30", "openapi3/helper_test.go:93", "", []),
        ("uncleanPath31", "31", "openapi31/helper_test.go:93", "", []),
        ("request30", "30", "openapi3/testdata/openapi_req.json", "", []),
        ("request31", "31", "openapi31/testdata/openapi_req.json", "", []),
        ("upload30", "30", "openapi3/reflect_deprecated_test.go:56", "", []),
        ("full30", "30", "openapi3/testdata/openapi.json", ", without the description of the path item, which is not modelled",
         [["paths", "/somewhere/{in_path}", "description"]]),
    ]:
        j = docs[d][where]
        for path in dropped:
            j = drop(j, path)
        t += "/-- `/repo/%s`%s -/\ndef %s : Any :=\n    %s\n\n" % (where, note, name, wrap(lean(j)))
    for name, where in [("reqSchema30", "openapi3/testdata/req_schema.json"),
                        ("respSchema30", "openapi3/testdata/resp_schema.json")]:
        t += "/-- `/repo/%s` -/\ndef %s : Any :=\n    %s\n\n" % (
            where, name, wrap(lean(parse(open(os.path.join(REPO, where)).read()))))
    t += "end Verif.Conformance.Expected\n"
    write("Expected", t)


def modules():
    t = "import Verif.Conformance.Basic\n\n"
    t += HEAD % ("The round trips of `/repo/openapi3/entities_test.go`: the model reads\neach fragment and writes it back, "
                 "as the Go test expects. Tests of the model, not proofs of properties.")
    t += "\nnamespace Verif.Conformance\nopen Codec\n\n"
    for name, where, ty, j in entities():
        t += "/- `%s`, `/repo/%s` -/\nexample : roundTrips V30.table \"%s\" (\n    %s) = true := by\n  decide +kernel\n\n" % (
            name, where, ty, wrap(lean(j)))
    t += "end Verif.Conformance\n"
    write("Entities30", t)
    for v in ("30", "31"):
        docs = documents(v)
        t = "import Verif.Conformance.Basic\n\n"
        t += HEAD % ("The documents the tests of this version expect from the code: the model reads\neach of them and "
                     "writes it back. Tests of the model, not proofs of properties.")
        t += "\nnamespace Verif.Conformance\nopen Codec\n\n"
        for where, j in docs:
            if where in UNREADABLE:
                t += "/- `/repo/%s`: written by the code, not readable: %s -/\nexample : (decode V%s.table nums (.named \"Spec\") (\n    %s)).isSome = false := by\n  decide +kernel\n\n" % (
                    where, UNREADABLE[where], v, wrap(lean(j)))
                continue
            t += "/- `/repo/%s` -/\nexample : keeps V%s.table (\n    %s) = true := by\n  decide +kernel\n\n" % (
                where, v, wrap(lean(j)))
        t += "end Verif.Conformance\n"
        write("Documents" + v, t)
        print(v, len(docs))


BIG = r'''
import Lean.Data.Json
import Verif.Conformance.Basic
open Verif Codec
instance : Inhabited Any := ⟨.null⟩
partial def conv : Lean.Json → Any
  | .null => .null
  | .bool b => .bool b
  | .num n => .num (toString n)
  | .str s => .str s
  | .arr a => .arr (a.toList.map conv)
  | .obj m => .obj (m.toList.map (fun (k, v) => (k, conv v)))
def main (args : List String) : IO Unit := do
  for f in args do
    match Lean.Json.parse (← IO.FS.readFile f) with
    | .ok j => IO.println s!"{f}: {if (decode V30.table Conformance.nums (.named "Spec") (conv j)).isSome then "read" else "rejected"}"
    | .error e => IO.println s!"{f}: {e}"
'''


def big():
    with tempfile.NamedTemporaryFile("w", suffix=".lean") as f:
        f.write(BIG)
        f.flush()
        d = os.path.join(REPO, "openapi3", "testdata")
        subprocess.run(["lake", "env", "lean", "--run", f.name, os.path.join(d, "openai-openapi.json"),
                        os.path.join(d, "openai-openapi-fixed.json")], cwd=LEAN, check=True)


if __name__ == "__main__":
    os.makedirs(OUT, exist_ok=True)
    modules()
    expected()
    if "--big" in sys.argv:
        big()
