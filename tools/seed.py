#!/usr/bin/env python3
"""Build a scratch copy of the Lean project with one realistic bug in the model and report
which property theorems no longer hold.

usage: seed.py SCRATCH MUTATIONS.json [index ...]

Every mutation is {"file", "definition", "old", "new", "edit", "claim"}.  Proofs that break are
replaced by `sorry` in the scratch copy until everything builds again; a property theorem has
failed if it then depends on `sorryAx` (or its own proof broke).  "tests" counts the theorems
translated from the repository's tests (Verif/Tests) that fail.  Results are written to
SCRATCH/results.jsonl."""
import json, os, re, shutil, subprocess, sys
from leanedit import sorry_out, start_of

ROOT = os.path.dirname(os.path.dirname(os.path.abspath(__file__)))
scratch, mfile = sys.argv[1], sys.argv[2]
muts = json.load(open(mfile))
idx = [int(x) for x in sys.argv[3:]] or range(len(muts))
def sh(cmd, cwd):
    return subprocess.run(cmd, cwd=cwd, capture_output=True, text=True)

os.makedirs(scratch, exist_ok=True)
if not os.path.exists(scratch + "/base"):
    subprocess.run(["cp", "-a", ROOT + "/lean", scratch + "/base"], check=True)
for n in idx:
    mu = muts[n]
    work = scratch + "/work"
    shutil.rmtree(work, ignore_errors=True)
    subprocess.run(["cp", "-a", scratch + "/base", work], check=True)
    f = os.path.join(work, mu["file"])
    s = open(f).read()
    if s.count(mu["old"]) != 1:
        print(n, "pattern occurs", s.count(mu["old"]), "times")
        continue
    open(f, "w").write(s.replace(mu["old"], mu["new"]))
    broken, stuck = [], None
    for _ in range(60):
        r = sh(["lake", "build", "Verif.Axioms"], work)
        out = r.stdout + r.stderr
        errs = re.findall(r"error: (Verif/\S+?\.lean):(\d+):\d+: (.*)", out)
        if not errs:
            if r.returncode != 0:
                stuck = out[-1500:]
            break
        byfile = {}
        for fn, ln, msg in errs:
            byfile.setdefault(fn, set()).add(int(ln) - 1)
        prog = False
        for fn, lns in byfile.items():
            p = os.path.join(work, fn)
            lines = open(p).read().splitlines(keepends=True)
            # one replacement for each declaration, from the bottom up
            for ln in sorted({start_of(lines, l) for l in lns if l < len(lines)}, reverse=True):
                nm = sorry_out(lines, ln) if ln >= 0 else None
                if nm:
                    broken.append(fn[6:-5] + ":" + nm)
                    prog = True
            open(p, "w").write("".join(lines))
        if not prog:
            stuck = "\n".join(map(str, errs[:5]))
            break
    failed = []
    if stuck is None:
        ax = re.findall(r"'(?:Tok3n\.)?(\S+)' depends on axioms: \[([^\]]*)\]", sh(["lake", "env", "lean", "Verif/Axioms.lean"], work).stdout)
        failed = [a for a, l in ax if "sorryAx" in l]
    # how many of the assertions translated from the repository's tests notice the bug
    tests = None
    if stuck is None:
        gen = ["Verif.Tests.Gen." + g[:-5] for g in sorted(os.listdir(work + "/Verif/Tests/Gen"))]
        r = sh(["lake", "build", *gen], work)
        tests = len(set(re.findall(r"error: (Verif/Tests/Gen/\S+?\.lean:\d+):", r.stdout + r.stderr)))
    res = dict(mu, failed=failed, broken=broken, stuck=stuck, tests=tests)
    with open(scratch + "/results.jsonl", "a") as o:
        o.write(json.dumps(res, ensure_ascii=False) + "\n")
    print(n, mu["definition"], "|", mu["edit"], "->", len(failed), "failed, tests:", tests, "|", " ".join(failed)[:600], "| stuck" if stuck else "", flush=True)
