#!/usr/bin/env python3
"""Random small edits of the model definitions, to look for ones no theorem notices.
usage: automutate.py SEED COUNT [OUT.jsonl]
With MUT_MODE=struct the edits exchange, drop or reorder the pieces of a line instead of its literals and operators.
Edits are made in a scratch copy (/tmp/mut/lean); a build is stopped at the first statement that no longer
checks. One line per edit goes to OUT (default /tmp/mut/auto.jsonl): outcome, definition, edit, first failures."""
import glob, json, os, random, re, signal, subprocess, sys
sys.path.insert(0, os.path.dirname(__file__))
from mutate import SRC, DST, sync, decl_at

def code_lines(p):
    """(index, line) outside comments."""
    depth = 0
    for i, l in enumerate(open(p).read().split("\n")):
        s = l
        if depth == 0 and "/-" in s:
            depth = 1
            if "-/" in s: depth = 0
            continue
        if depth:
            if "-/" in s: depth = 0
            continue
        if s.startswith(("import", "namespace", "end", "open", "variable", "section", "attribute", "instance")): continue
        if s.strip() == "" or s.strip().startswith(("--", "deriving")): continue
        yield i, l

def variants(l, ctors):
    """All single edits of a line: (new line, description)."""
    out = []
    def sub(m, new):
        out.append((l[:m.start()] + new + l[m.end():], f"`{m.group(0)}` becomes `{new}`"))
    for m in re.finditer(r"(?<![\w.'{])(\d+)(?![\w'])", l):
        n = int(m.group(1)); sub(m, str(n + 1))
        if n > 0: sub(m, str(n - 1))
    for m in re.finditer(r"'(.)'", l):
        sub(m, "';'" if m.group(1) != ";" else "','")
    for m in re.finditer(r'c!"([^"\\]+)"', l):
        t = m.group(1); sub(m, 'c!"%sx"' % t)
        if t.lower() != t: sub(m, 'c!"%s"' % t.lower())
    for a, b in [("≤", "<"), (" < ", " ≤ "), (" > ", " ≥ "), (" ∧ ", " ∨ "), (" ∨ ", " ∧ "), (" && ", " || "), (" || ", " && "), (" ≠ ", " = "), ("!f ", "f "), ("++", "++ [' '] ++"),
                 ("takeTill", "takeWhile"), ("isSome", "isNone"), ("getLast?", "head?"), ("dropLast", "tail"), (" + ", " - "), (" - ", " + "), ("some ()", "none")]:
        for m in re.finditer(re.escape(a), l): sub(m, b)
    for m in re.finditer(r"\bif (.+?) (=|==) (.+?) then", l):
        sub(m, f"if {m.group(1)} ≠ {m.group(3)} then")
    for m in re.finditer(r"\b(true|false)\b", l): sub(m, "false" if m.group(1) == "true" else "true")
    for m in re.finditer(r"\b(none)\b(?= *(\||$|else))", l): pass
    for m in re.finditer(r"(?<![\w)\]])\.([a-z]\w+)", l):
        for grp in ctors:
            if m.group(1) in grp:
                o = [x for x in grp if x != m.group(1)]
                if o: sub(m, "." + random.choice(o))
    if "alt [" not in l:
        pass
    return [v for v in out if v[0] != l]

SWAPS = [("cut (", "id ("), ("cut comma", "comma"), ("peek comma", "comma"), ("peek (", "id ("), ("trim ", "id "), ("eof", "nothing"), ("nothing", "eof"), ("restType", "commaFieldType"),
         ("commaFieldType", "restType"), ("commaField)", "rest)"), ("mapRes rest", "mapRes commaField"), ("mapRes commaField", "mapRes rest"), ("parseI32", "parseU32"), ("parseU32", "parseI32"),
         ("parseUsize", "parseU32"), ("multispace0", "space0"), ("many0", "sepList0 comma"), ("takeUntil", "takeTill (· == ':') --"), (".tail", ""), ("filterMap", "map"), ("takeWhile", "dropWhile"),
         ("stripPrefix", "stripSuffix"), ("startsWith", "endsWith"), ("endsWith", "startsWith"), ("contains", "startsWith"), ("join ['\\n', '\\n']", "join ['\\n']"), ("join ['\\n']", "join [',']"),
         ("lines ", "splitNL "), ("i32ToStr", "natToStr ∘ Int32.toNatClampNeg"), (".startTime", ".endTime"), (".endTime", ".startTime"), (".red", ".green"), (".green", ".blue"), (".x", ".y"), (".y", ".x"),
         ("[] else", "[c!\"\"] else"), ("else some none", "else none"), (".panic", ".err default"), ("Decimal.shiftUp version", "some"), ("shiftUp version", "some"), ("toStrShifted version", "toStrShifted 14")]

def structural(l):
    """Single edits that exchange, drop or reorder pieces of a line."""
    out = []
    for a, b in SWAPS:
        for m in re.finditer(re.escape(a), l): out.append((l[:m.start()] + b + l[m.end():], f"`{a.strip()}` becomes `{b.strip()}` (column {m.start()})"))
    # drop a context
    for m in re.finditer(r"context \.\w+ ", l): out.append((l[:m.start()] + "id " + l[m.end():], f"`{m.group(0).strip()}` left out (column {m.start()})"))
    # exchange neighbours in a concatenation or a list of alternatives
    for sep in (" ++ ", ", "):
        ps = l.split(sep)
        for i in range(1, len(ps) - 2 + 1):
            if i + 1 < len(ps):
                q = ps[:]; q[i], q[i + 1] = q[i + 1], q[i]; out.append((sep.join(q), f"pieces {i + 1} and {i + 2} between `{sep.strip()}` exchanged"))
            q = ps[:i] + ps[i + 1:]; out.append((sep.join(q), f"piece {i + 1} between `{sep.strip()}` left out"))
    # negate a condition
    for m in re.finditer(r"\bif (.+?) then", l): out.append((l[:m.start()] + f"if ¬ ({m.group(1)}) then" + l[m.end():], f"condition `{m.group(1)}` negated"))
    return [v for v in out if v[0] != l]

def run(stop):
    p = subprocess.Popen(["lake", "build"], cwd=DST, stdout=subprocess.PIPE, stderr=subprocess.STDOUT, text=True, start_new_session=True)
    ds = set()
    for l in p.stdout:
        m = re.match(r"error: (Verif/\S+?):(\d+):(\d+): (.*)", l)
        if m:
            d = decl_at(os.path.join(DST, m.group(1)), int(m.group(2))); ds.add(d)
            if stop and d[0] != "example":
                os.killpg(p.pid, signal.SIGKILL); break
    p.wait()
    return ds

if __name__ == "__main__":
    seed, count = int(sys.argv[1]), int(sys.argv[2])
    out = sys.argv[3] if len(sys.argv) > 3 else "/tmp/mut/auto.jsonl"
    random.seed(seed)
    files = sorted(glob.glob(SRC + "/Verif/Model/*.lean"))
    ctors = []
    for p in files + glob.glob(SRC + "/Verif/Basic/*.lean"):
        t = re.sub(r"/-.*?-/", "", open(p).read(), flags=re.S)
        for m in re.finditer(r"^inductive .*?where\n((?:  .*\n)+)", t, re.M):
            cs = re.findall(r"\| *(\w+)(?= *(?:\||$|\n))", re.sub(r"deriving.*", "", m.group(1)))
            if len(cs) > 1: ctors.append(cs)
    cands = []
    for p in files:
        for i, l in code_lines(p):
            for new, what in (structural(l) if os.environ.get("MUT_MODE") == "struct" else variants(l, ctors)): cands.append((p, i, l, new, what))
    random.shuffle(cands)
    done = set()
    if os.path.exists(out): done = {(json.loads(x)["file"], json.loads(x)["old"], json.loads(x)["new"]) for x in open(out)}
    print(len(cands), "candidates", flush=True)
    k = 0
    for p, i, l, new, what in cands:
        if k >= count: break
        f = os.path.relpath(p, SRC + "/Verif")
        if (f, l, new) in done: continue
        k += 1
        sync()
        q = os.path.join(DST, "Verif", f)
        L = open(q).read().split("\n")
        if i >= len(L) or L[i] != l: continue
        d = decl_at(q, i + 1)
        L[i] = new; open(q, "w").write("\n".join(L))
        ds = run(True)
        bad = [x for kk, x in ds if kk not in ("theorem", "example")]
        thm = sorted(x for kk, x in ds if kk == "theorem"); exs = sorted(x for kk, x in ds if kk == "example")
        res = "invalid" if bad else "killed" if thm else "examples" if exs else "SURVIVED"
        open(out, "a").write(json.dumps(dict(outcome=res, file=f, line=i + 1, definition=d[1] if d != "?" else "?", what=what, old=l, new=new, theorems=thm, examples=exs)) + "\n")
        print(res, f, i + 1, d[1] if d != "?" else "?", what, "|", ",".join(thm), "|", " ".join(exs), flush=True)
    sync()
