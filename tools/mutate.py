#!/usr/bin/env python3
"""Mutation tester.  usage: mutate.py mutants.json [first [last]]
Each mutant: {"file": "Model/Fvm.lean", "def": "...", "old": "...", "new": "...", "nth": 0, "edit": "...", "claim": "Cxx ..."}.
The edit is made in a scratch copy (/tmp/mut/lean), the project is rebuilt there, and the theorems whose proof fails are collected.
One JSON line per mutant is appended to seeded/LOG.jsonl."""
import json, os, re, subprocess, sys, shutil
scratch = os.environ.get("MUT", "/tmp/mut/lean")
root = os.path.dirname(os.path.dirname(os.path.abspath(__file__)))
subprocess.run(["rsync", "-a", "--delete", root + "/lean/", scratch + "/"], check=True) if shutil.which("rsync") else \
    (shutil.rmtree(scratch, ignore_errors=True), subprocess.run(["cp", "-a", root + "/lean", scratch], check=True))
muts = json.load(open(sys.argv[1]))
first = int(sys.argv[2]) if len(sys.argv) > 2 else 0
last = int(sys.argv[3]) if len(sys.argv) > 3 else len(muts)
def enclosing(path, line):
    ls = open(path).read().split("\n")
    for k in range(min(line, len(ls)) - 1, -1, -1):
        m = re.match(r"\s*(?:@\[.*?\]\s*)?(?:private |noncomputable |protected )*(theorem|lemma|def|example|instance|structure|abbrev)\b\s*(\S*)", ls[k])
        if m: return (m.group(2) if m.group(1) != "example" else "example@%s:%d" % (os.path.basename(path), k + 1))
    return "?"
# module -> Cxx theorems that become unavailable when the module fails
for n in range(first, last):
    m = muts[n]
    p = os.path.join(scratch, "Verif", m["file"])
    src = open(p).read()
    parts = src.split(m["old"])
    nth = m.get("nth", 0)
    if len(parts) < nth + 2:
        print(n, "OLD NOT FOUND", m["old"][:60]); continue
    new = m["old"].join(parts[:nth + 1]) + m["new"] + m["old"].join(parts[nth + 1:])
    open(p, "w").write(new)
    try:
        r = subprocess.run(["lake", "build"], cwd=scratch, capture_output=True, text=True, timeout=2400)
        out = r.stdout + r.stderr
    except subprocess.TimeoutExpired:
        out = "timeout"
    errs = []
    for f, l in re.findall(r"error: (Verif/\S+?\.lean):(\d+):\d+", out):
        t = enclosing(os.path.join(scratch, f), int(l))
        if t not in errs: errs.append(t)
    bad = [f for f, _ in re.findall(r"error: (Verif/\S+?\.lean):(\d+):\d+", out) if f == "Verif/" + m["file"]]
    open(p, "w").write(src)
    status = "INVALID" if bad else ("killed" if errs else ("SURVIVED" if "success" in out else "???"))
    print(n, status, m["def"], "|", m["edit"], "|", m["claim"], "->", errs[:8], flush=True)
    if bad: print(out[-800:]); continue
    with open(os.path.join(root, "seeded", "LOG.jsonl"), "a") as f:
        f.write(json.dumps({"definition": m["file"] + ": " + m["def"], "edit": m["edit"], "claim_broken": m["claim"], "result": status,
                            "theorems_failed": errs, "theorems_tightened": m.get("tightened", [])}, ensure_ascii=False) + "\n")
