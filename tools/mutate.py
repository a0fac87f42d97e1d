#!/usr/bin/env python3
"""Random mutants of the model. Usage: mutate.py OUT.jsonl COUNT SEED [FILE...]. Each mutant changes one token of one
definition (not of comments, statements or proofs) in a scratch copy of the Lean project and rebuilds it. Mutants that
do not compile are not counted. The results go to OUT.jsonl, with the declarations that failed."""
import json, os, random, re, shutil, subprocess, sys, threading
src, scratch = "/verif/lean", os.environ.get("SCRATCH", "/tmp/mut/lean")
out, count, seed = sys.argv[1], int(sys.argv[2]), int(sys.argv[3])
files = sys.argv[4:] or ["Deprecated", "Entities", "Http", "JSchema", "OpCtx", "Path", "Reflect", "Refs31", "Schema30", "Spec30",
  "Spec31", "Union", "Walk", "Yaml", "Codec/Basic"]
rnd = random.Random(seed)
shutil.rmtree(scratch, ignore_errors=True)
os.makedirs(os.path.dirname(scratch), exist_ok=True)
shutil.copytree(src, scratch, symlinks=True)
DECL = re.compile(r"^\s*(?:@\[[^\]]*\]\s*)?(?:private |protected )?(theorem|def|example|instance|inductive|structure|abbrev|lemma|mutual|namespace|end|open|variable|import|set_option)\b\s*(\S*)")
def decl_at(path, line):
    lines = open(path).read().split("\n")[:line]
    ns, name = [], None
    for l in lines:
        m = re.match(r"namespace (\S+)", l)
        if m: ns.append(m.group(1))
        m = re.match(r"end (\S+)", l)
        if m and ns: ns.pop()
        m = DECL.match(l)
        if m and m.group(1) in ("theorem", "def", "instance", "inductive", "structure", "abbrev", "lemma"):
            name = ".".join(ns + [m.group(2)])
        elif m and m.group(1) == "example": name = "example after " + str(name).replace("example after ", "")
    return name
def bodies(text):
    """(definition, start, end) of the bodies of definitions, without comments"""
    lines = text.split("\n")
    pos, cur, kind, comment, inbody = 0, None, None, False, False
    res = []
    for l in lines:
        if not comment and l.lstrip().startswith("/-"): comment = True
        if comment:
            if "-/" in l: comment = False
            pos += len(l) + 1
            continue
        m = DECL.match(l)
        if m:
            kind, cur, inbody = m.group(1), m.group(2), False
        if kind == "def":
            s, e = 0, len(l)
            if not inbody:
                i = l.find(":=")
                if i >= 0: s, inbody = i + 2, True
                elif re.match(r"\s*\|", l): inbody = True
                else: s = e
            c = l.find("--")
            if c >= 0: e = min(e, c)
            if s < e: res.append((cur, pos + s, pos + e))
        pos += len(l) + 1
    return res
OPS = [(r"\btrue\b", "false"), (r"\bfalse\b", "true"), (r"&&", "||"), (r"\|\|", "&&"), (r"∧", "∨"), (r"∨", "∧"), (r" = ", " ≠ "),
  (r" ≠ ", " = "), (r" == ", " != "), (r" != ", " == "), (r'"([^"]*)"', lambda m: '"%sx"' % m.group(1)),
  (r"\b(\d+)\b", lambda m: str(int(m.group(1)) + 1)), (r"\bsome \b", None), (r"!(?=[a-zA-Z(])", ""), (r" < ", " ≤ "), (r" ≤ ", " < "),
  (r"if (.+?) then", lambda m: "if ¬(%s) then" % m.group(1)), (r"\.any\b", ".all"), (r"\.all\b", ".any"),
  (r"(\w+) \+\+ (\w+)", lambda m: "%s ++ %s" % (m.group(2), m.group(1))), (r"(\w+) := [^,{}()\[\]]+, (?=\w+ :=)", ""),
  (r", \w+ := [^,{}()\[\]]+(?= \})", ""), (r"\{ (\w+) with [^{}]* \}", lambda m: m.group(1)), (r"\.isNone", ".isSome"), (r"\.isSome", ".isNone"),
  (r"\.filter\b", ".dropWhile"), (r"\.reverse\b", ""), (r"\.dropLast\b", ""), (r":: (\w+)", lambda m: ":: " + m.group(1) + ".tail"),
  (r"=> \.ok (\w+)$", lambda m: "=> .err"), (r"=> (\w+)\.(\w+) ", lambda m: "=> id ")]
def mutants():
    res = []
    for f in files:
        t = texts[f]
        for d, s, e in bodies(t):
            for i, (p, r) in enumerate(OPS):
                if r is None: continue
                for m in re.finditer(p, t[s:e]):
                    # not inside a string
                    if t[s:s + m.start()].count('"') % 2: continue
                    new = r(m) if callable(r) else r
                    if new != m.group(0): res.append((f, d, s + m.start(), s + m.end(), new))
    return res
texts = {f: open(f"{src}/Verif/{f}.lean").read() for f in files}
ms = mutants()
by = {}
for m in ms: by.setdefault((m[0], m[1]), []).append(m)
keys = sorted(by)
print(len(ms), "mutants of", len(keys), "definitions")
done = 0
order = []
for m in by.values(): rnd.shuffle(m)
while any(by.values()):
    ks = [k for k in keys if by[k]]
    rnd.shuffle(ks)
    for k in ks: order.append(by[k].pop())
for f, d, a, b, new in order:
    if done >= count: break
    p = f"{scratch}/Verif/{f}.lean"
    orig = texts[f]
    open(p, "w").write(orig[:a] + new + orig[b:])
    ls, le = orig.rfind("\n", 0, a) + 1, orig.find("\n", b)
    edit = orig[ls:le].strip() + "  ==>  " + (orig[ls:a] + new + orig[b:le]).strip()
    r = subprocess.run(["lake", "build", "Verif." + f.replace("/", ".")], cwd=scratch, capture_output=True, text=True)
    if r.returncode != 0:
        open(p, "w").write(orig); continue
    # stop a minute after the first failure: what matters is whether anything fails
    pr = subprocess.Popen(["lake", "build"], cwd=scratch, stdout=subprocess.PIPE, stderr=subprocess.STDOUT, text=True, start_new_session=True)
    timer = threading.Timer(1800, lambda: os.killpg(pr.pid, 9))
    timer.start()
    text, first = "", True
    for line in pr.stdout:
        text += line
        if first and line.startswith("error: Verif/"):
            first = False
            t2 = threading.Timer(60, lambda: os.killpg(pr.pid, 9))
            t2.start()
    pr.wait()
    timer.cancel()
    if not first: t2.cancel()
    failed = []
    for g, l in re.findall(r"error: (Verif/\S+?\.lean):(\d+):", text):
        n = decl_at(scratch + "/" + g, int(l))
        if n not in failed: failed.append(n)
    open(p, "w").write(orig)
    done += 1
    with open(out, "a") as o:
        o.write(json.dumps({"file": f, "definition": d, "edit": edit, "failed": failed, "ok": pr.returncode == 0}) + "\n")
    print(("SURVIVED " if pr.returncode == 0 else "OK ") + f, d, "|", edit, failed[:3], flush=True)
