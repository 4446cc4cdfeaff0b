#!/usr/bin/env python3
"""Writes /verif/MANIFEST.json from the theorem names in lean/Verif/Props (run: python3 tools/manifest.py).
A theorem `Cnn_...` belongs to property Cnn. Status and notes that cannot be read off the names are below."""
import json, os, re, glob
root = os.path.join(os.path.dirname(os.path.abspath(__file__)), "..")
props = [json.loads(l)["id"] for l in open(os.path.join(root, "properties.jsonl"))]
thms = {}
for f in sorted(glob.glob(os.path.join(root, "lean/Verif/Props/*.lean"))):
    ns = []
    for line in open(f):
        m = re.match(r"namespace (\S+)", line)
        if m: ns.append(m.group(1)); continue
        m = re.match(r"end (\S+)", line)
        if m and ns and ns[-1] == m.group(1): ns.pop(); continue
        m = re.match(r"(?:private )?theorem (C\d+)_(\S+)", line)
        if m: thms.setdefault(m.group(1), []).append(".".join(ns + [f"{m.group(1)}_{m.group(2)}"]))
exec(open(os.path.join(root, "tools/notes.py")).read())
claims = []
for c in props:
    ts = thms.get(c, [])
    if not ts and c not in STATUS: continue
    st = STATUS.get(c, "partial" if any(t.endswith("_partial") for t in ts) else "proved")
    claims.append({"property": c, "status": st, "theorems": ts, "note": NOTE.get(c, "")})
json.dump({"claims": claims}, open(os.path.join(root, "MANIFEST.json"), "w"), indent=1, ensure_ascii=False)
print(len(claims), "claims,", sum(len(c["theorems"]) for c in claims), "theorems; missing:", [c for c in props if c not in thms and c not in STATUS])
