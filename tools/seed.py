#!/usr/bin/env python3
"""Seeded-bug rounds. Usage: seed.py ROUND.json [--dry] [--out FILE]. Each entry: file (under lean/Verif), def, old, new, claim, tightened.
The model is edited in a scratch copy, rebuilt, and the failing declarations are appended to seeded/LOG.jsonl."""
import json, os, re, shutil, subprocess, sys
src, scratch = "/verif/lean", os.environ.get("SCRATCH", "/tmp/scratch") + "/lean"
shutil.rmtree(scratch, ignore_errors=True)
shutil.copytree(src, scratch, symlinks=True)
subprocess.run(["lake", "build"], cwd=scratch, capture_output=True)
def decl_at(path, line):
    lines = open(path).read().split("\n")[:line]
    ns = []
    name = None
    for l in lines:
        m = re.match(r"namespace (\S+)", l)
        if m: ns.append(m.group(1))
        m = re.match(r"end (\S+)", l)
        if m and ns: ns.pop()
        m = re.match(r"\s*(?:@\[[^\]]*\]\s*)?(?:private |protected )?(theorem|def|example|instance|inductive|structure|abbrev|lemma|mutual)\b\s*(\S*)", l)
        if m and m.group(1) != "mutual":
            name = ".".join(ns + [m.group(2)]) if m.group(1) != "example" else "example after " + str(name).replace("example after ", "")
    return name
for e in json.load(open(sys.argv[1])):
    p = f"{scratch}/Verif/{e['file']}"
    orig = open(p).read()
    if orig.count(e["old"]) != 1:
        print("SKIP (old text occurs %d times): %s" % (orig.count(e["old"]), e["def"])); continue
    open(p, "w").write(orig.replace(e["old"], e["new"]))
    r = subprocess.run(["lake", "build"], cwd=scratch, capture_output=True, text=True)
    out = r.stdout + r.stderr
    failed = []
    for f, l in re.findall(r"error: (Verif/\S+?\.lean):(\d+):", out):
        d = f"{decl_at(scratch + '/' + f, int(l))}"
        if d not in failed: failed.append(d)
    open(p, "w").write(orig)
    rec = {"definition": e["def"], "edit": e.get("edit") or (e["old"].strip() + "  ==>  " + e["new"].strip()), "claim_broken": e["claim"],
           "theorems_failed": failed, "theorems_tightened": e.get("tightened", [])}
    if e.get("note"): rec["note"] = e["note"]
    print(("OK  " if failed else "SURVIVED ") + e["def"], failed[:6])
    if "--dry" not in sys.argv:
        open(sys.argv[sys.argv.index("--out") + 1] if "--out" in sys.argv else "/verif/seeded/LOG.jsonl", "a").write(json.dumps(rec) + "\n")
