#!/usr/bin/env python3
"""Runs the seeded edits against the theorems of the manifest that no edit has broken so far. usage: target.py [N]
For each edit only the modules with such theorems are built, in a scratch copy; failing statements below them that they do not
depend on are assumed there (sorry, in the scratch copy only) to get to the theorems themselves. Appends to /tmp/mut/target.jsonl."""
import glob, json, os, re, subprocess, sys, time
sys.path.insert(0, os.path.dirname(__file__))
import mutate
from mutate import SRC, DST, deps, closure, decl_at, sync, strip
OUT = "/tmp/mut/target.jsonl"
man = json.load(open("/verif/MANIFEST.json"))
allth = [t for c in man["claims"] for t in c["theorems"]]
mod = {}
for f in glob.glob(SRC + "/Verif/Props/*.lean") + glob.glob(SRC + "/Verif/Check/*.lean"):
    for l in open(f):
        m = re.match(r"(?:private |protected )?theorem (C\d+_\w+)", l)
        if m: mod["Osu." + m.group(1)] = "Verif." + os.path.relpath(f, SRC + "/Verif")[:-5].replace("/", ".")
def depth(t):
    seen, todo = {}, [(m, 1) for m in deps[t][1]]
    while todo:
        n, d = todo.pop(0)
        if n in seen or n not in deps or deps[n][0] == "T": continue
        seen[n] = d; todo += [(m, d + 1) for m in deps[n][1]]
    return seen
def edited(mu):
    r = set()
    for f, old, new in mu.get("edits") or [[mu["file"], mu["old"], mu["new"]]]:
        p = os.path.join(SRC, "Verif", f); s = open(p).read()
        i = s.find(old)
        if i < 0: return set()
        k = 0
        while k < min(len(old), len(new)) and old[k] == new[k]: k += 1
        for q in {i, i + k}:
            d = decl_at(p, s.count("\n", 0, q) + 1)
            if d != "?": r.add(d[1])
    return r
def proof_start(txt):
    d, i = 0, 0
    while i < len(txt):
        c = txt[i]
        if c in "([{⟨": d += 1
        elif c in ")]}⟩": d -= 1
        elif c == '"':
            i += 1
            while txt[i] != '"': i += 2 if txt[i] == "\\" else 1
        elif d == 0 and txt.startswith(":=", i) and not re.search(r"\blet \w+ $", txt[:i]): return i
        elif d == 0 and txt.startswith("\n  | ", i): return i
        i += 1
    return None
def assume(path, lines):
    ls = open(path).read().split("\n")
    ends = re.compile(r"(/--|theorem|lemma|example|end|section|namespace|open|private|protected|def|variable|omit|instance|abbrev|set_option|@\[|structure|inductive|attribute|/-!)")
    heads = [i for i, l in enumerate(ls) if re.match(r"(?:@\[.*?\] )?(?:private |protected )?theorem\b", l)]
    ok = True
    for a in reversed(heads):
        b = a + 1
        while b < len(ls) and not ends.match(ls[b]): b += 1
        if not any(a < n <= b for n in lines): continue
        txt = "\n".join(ls[a:b]); k = proof_start(txt)
        if k is None: ok = False; continue
        new = txt[:k].rstrip() + " := sorry"
        new += "\n" * (txt.count("\n") - new.count("\n"))
        ls[a:b] = new.split("\n")
    open(path, "w").write("\n".join(ls)); return ok
def build(mods):
    o = subprocess.run(["lake", "build"] + mods, cwd=DST, capture_output=True, text=True)
    errs = set()
    for l in (o.stdout + o.stderr).split("\n"):
        m = re.match(r"error: (Verif/\S+?):(\d+):(\d+): (.*)", l)
        if m: errs.add((m.group(1), int(m.group(2))))
    return o.returncode, errs
def load(p):
    return [json.loads(l) for l in open(p)] if os.path.exists(p) else []
if __name__ == "__main__":
    limit = int(sys.argv[1]) if len(sys.argv) > 1 else 1000
    D = {t: depth(t) for t in allth if t in deps and t in mod}
    muts = {}
    for f in sorted(glob.glob("/verif/seeded/mutants/*.json")):
        for mu in json.load(open(f)): muts[mu["name"]] = mu
    defs = {n: edited(mu) for n, mu in muts.items()}
    for _ in range(limit):
        killed, tried, bad = set(), set(), set()
        for r in load("/tmp/mut/out.jsonl"):
            killed |= {"Osu." + p for p in r["props"]} | set(r["direct"])
            if r["bad"] or r["rc"] == 0: bad.add(r["name"])
        for r in load(OUT):
            killed |= set(r["killed"]); tried |= {(r["name"], t) for t in r["targets"]}
            if r.get("bad"): bad.add(r["name"])
        open_ = [t for t in D if t not in killed]
        best, score, targets = None, 0, []
        for n in muts:
            if n in bad: continue
            ts = [(t, min((D[t][d] for d in defs[n] if d in D[t]), default=99)) for t in open_ if (n, t) not in tried]
            ts = [(t, d) for t, d in ts if d <= 4]
            s = sum(4.0 ** -d for _, d in ts)
            if s > score: best, score, targets = n, s, [t for t, _ in ts]
        if best is None: break
        mu, t0 = muts[best], time.time()
        sync()
        for f, old, new in mu.get("edits") or [[mu["file"], mu["old"], mu["new"]]]:
            p = os.path.join(DST, "Verif", f); s = open(p).read()
            open(p, "w").write(s.replace(old, new, 1))
        left, kills, failed, invalid = set(targets), set(), set(), False
        for round_ in range(12):
            rc, errs = build(sorted({mod[t] for t in left}))
            if rc == 0 or not errs: break
            ds = {(f, n): decl_at(os.path.join(DST, f), n) for f, n in errs}
            if any(k[0] not in ("theorem", "example") for k in ds.values()): invalid = True; break
            ths = {k[1] for k in ds.values() if k[0] == "theorem"}
            failed |= ths
            kills |= left & closure(ths)
            left -= kills
            if not left: break
            ok = True
            for f in {f for f, _ in errs}:
                p = os.path.join(DST, f)
                ex = {n for (g, n), k in ds.items() if g == f and k[0] == "example"}
                th = {n for (g, n), k in ds.items() if g == f and k[0] == "theorem"}
                if ex: strip(p, ex)
                if th: ok = assume(p, th) and ok
            if not ok: break
        r = dict(name=best, targets=targets, killed=sorted(kills), failed=sorted(failed), bad=invalid, time=round(time.time() - t0))
        open(OUT, "a").write(json.dumps(r) + "\n")
        print(best, f"{len(kills)}/{len(targets)}", "INVALID" if invalid else "", r["time"], "s | open", len(open_) - len(kills), "|", " ".join(t[4:] for t in sorted(kills)), flush=True)
    sync()
