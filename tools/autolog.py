#!/usr/bin/env python3
"""Turn the outcomes of automutate.py into lines of seeded/LOG.jsonl. usage: autolog.py AUTO.jsonl [NOTES.json]
NOTES: {"definition|edit": {"claim": ..., "tightened": [...]}} for edits that no theorem noticed. Edits already
logged and edits that do not type check are left out."""
import json, os, re, sys
sys.path.insert(0, os.path.dirname(__file__))
from mutate import closure, deps
ROOT = os.path.dirname(os.path.dirname(os.path.abspath(__file__)))
titles = {json.loads(l)["id"]: json.loads(l)["title"] for l in open(ROOT + "/properties.jsonl")}
notes = json.load(open(sys.argv[2])) if len(sys.argv) > 2 else {}
log = ROOT + "/seeded/LOG.jsonl"
seen = {(json.loads(l)["definition"], json.loads(l)["edit"]) for l in open(log)}
n, left = 0, []
with open(log, "a") as f:
    for l in open(sys.argv[1]):
        r = json.loads(l)
        if r["outcome"] == "invalid": continue
        d = r["definition"].replace("Osu.", "", 1)
        e = f"line {r['line']} of {r['file']}: {r['what']}"
        if (d, e) in seen: continue
        seen.add((d, e))
        props = sorted({x[4:] for x in closure(r["theorems"]) if re.match(r"Osu\.C\d+_", x) and deps[x][0] == "T" and x.count(".") == 1})
        ids = sorted({p[:3] for p in props})
        o = {"definition": d, "edit": e, "claim_broken": "; ".join(titles[i] for i in ids[:4]) + ("; and others" if len(ids) > 4 else ""),
             "theorems_failed": [x.replace("Osu.", "", 1) for x in r["theorems"]], "property_theorems_failed": props[:20],
             "examples_failed": r["examples"], "theorems_tightened": []}
        if r["outcome"] != "killed":
            k = d + "|" + r["what"]
            if k not in notes: left.append(k); continue
            o["claim_broken"] = notes[k]["claim"]; o["theorems_tightened"] = notes[k]["tightened"]
        f.write(json.dumps(o, ensure_ascii=False) + "\n"); n += 1
print(n, "logged; not explained:", left)
