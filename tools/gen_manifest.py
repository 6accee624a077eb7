#!/usr/bin/env python3
"""Regenerates MANIFEST.json from the theorem names Cxx_* in lean/Verif/Props and lean/tools notes,
lean/Verif.lean's import list, and tools/axioms.lean."""
import json, os, re, glob
here = os.path.dirname(os.path.abspath(__file__)); root = os.path.join(here, "..")
props = [json.loads(l) for l in open(os.path.join(root, "properties.jsonl"))]
thms = {}
for f in sorted(glob.glob(os.path.join(root, "lean/Verif/Props/*.lean"))):
    ns = []
    for line in open(f):
        m = re.match(r"namespace (\S+)", line)
        if m: ns.append(m.group(1))
        m = re.match(r"end (\S+)", line)
        if m and ns and ns[-1] == m.group(1): ns.pop()
        m = re.match(r"(?:private )?theorem (C\d\d+)_(\S+)", line)
        if m: thms.setdefault(m.group(1), []).append(".".join(ns + [m.group(1) + "_" + m.group(2)]))
notes = {}
for l in open(os.path.join(here, "notes.txt")):
    l = l.rstrip("\n")
    if not l or l.startswith("#"): continue
    pid, status, note = l.split("|", 2)
    notes[pid.strip()] = (status.strip(), note.strip())
claims = []
for p in props:
    i = p["id"]; t = thms.get(i, [])
    if i in notes: st, note = notes[i]
    else: st, note = "proved", ""
    if not t and st != "not_applicable":
        continue
    claims.append({"property": i, "status": st, "theorems": t, "note": note})
json.dump({"claims": claims}, open(os.path.join(root, "MANIFEST.json"), "w"), indent=1, ensure_ascii=False)
mods = sorted(os.path.relpath(f, os.path.join(root, "lean"))[:-5].replace("/", ".")
              for f in glob.glob(os.path.join(root, "lean/Verif/**/*.lean"), recursive=True))
open(os.path.join(root, "lean/Verif.lean"), "w").write("".join("import %s\n" % m for m in mods))
with open("/tmp/axioms.lean", "w") as f:
    f.write("import Verif\n")
    for c in claims:
        for t in c["theorems"]: f.write("#print axioms %s\n" % t)
print(len(claims), "claims", sum(len(c["theorems"]) for c in claims), "theorems; missing:",
      [p["id"] for p in props if p["id"] not in {c["property"] for c in claims}])
