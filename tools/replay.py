#!/usr/bin/env python3
"""Runs the tests of src/tests/osu_files on the model: every file of the tests is read and printed by the model (tools/replay.txt)
and the result is compared with the file, up to what osu_str_trimmer (src/lib.rs:40-127, again written here) removes.
Needs a built project."""
import os, shutil, subprocess, sys, tempfile

FILES = "/repo/src/tests/osu_files/files/"
LEAN = os.path.join(os.path.dirname(os.path.dirname(os.path.abspath(__file__))), "lean")
# what the model says where the file is refused; the tests say 21 and 46 for the first two, see DESIGN.md section 5
ERRORS = {
    "error_line_index.osb": "Line 20, Unknown command type",
    "error_line_index_sb.osu": "Line 42, Unknown command type",
    "error_line_index_variable.osb": "Line 3, Missing the header `$`",
    "leading_ws_w_err.osu": "Line 7, Invalid colon set, expected format of `key: value`",
}


def trimmer(s):
    out, inner, in_sections, first, coloned = [], [], False, True, True
    for raw in s.split("\n"):
        line = raw.strip().replace("﻿", "")
        if not line:
            continue
        header = line[0] == "[" and line[-1] == "]"
        if not in_sections:
            if header:
                in_sections = True
                out.append(line)
            else:
                if first and line.startswith("osu file format v"):
                    out.append(line)
                first = False
        elif header:
            out += sorted(inner)
            inner, coloned = [], True
            out.append(line)
        elif ":" in line:
            line = "".join(c for c in line if not c.isspace())
            (inner if coloned else out).append(line)
        else:
            coloned = False
            out += inner
            inner = []
            out.append(line)
    return out + sorted(inner)


def text(path):
    return open(path, encoding="utf8", newline="").read()


def main():
    tmp = tempfile.mkdtemp()
    prog = os.path.join(tmp, "Replay.lean")
    shutil.copy(os.path.join(os.path.dirname(os.path.abspath(__file__)), "replay.txt"), prog)
    names = sorted(os.listdir(FILES)) + ["v3.osu@14"]
    r = subprocess.run(["bash", "-c", 'ulimit -s unlimited; exec lake env lean --run "$@"', "x", prog, tmp] + [FILES + n for n in names],
                       cwd=LEAN, capture_output=True, text=True)
    said = dict(l.split("\t") for l in r.stdout.splitlines())
    bad = 0
    for n in names:
        if n in ERRORS:
            ok = said.get(n) == ERRORS[n]
        else:
            want = "v3_v14.osu" if n == "v3.osu@14" else n
            ok = said.get(n) == "ok" and trimmer(text(os.path.join(tmp, n))) == trimmer(text(FILES + want))
        bad += not ok
        if not ok:
            print("DIFFERENT", n, said.get(n))
    print(len(names) - bad, "of", len(names), "agree")
    return 1 if bad else 0


if __name__ == "__main__":
    sys.exit(main())
