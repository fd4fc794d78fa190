#!/usr/bin/env python3
"""Is a property theorem too weak?  For a realistic bug in the model, show that the *statement* of
a property theorem has become false.

usage: refute.py SCRATCH REFUTATIONS.json [index ...]

Every entry is a mutation as for seed.py ("file", "old", "new", "edit", "claim") with "theorem",
the property theorem, "module", where it is, and "refutation": Lean text that proves `False` from
that theorem.  In the scratch copy all proofs are replaced by `sorry` first, so that only
definitions and statements count; a refutation has to compile in the copy with the bug.  Besides
the theorem it refutes it may use `Parse_eq_done`/`Look_eq_done` (enough fuel gives the meaning),
through `Ex.parses`/`Ex.looks`, and what `Spec/Example.lean` proves.  Results go to SCRATCH/refuted.jsonl."""
import json, os, re, shutil, subprocess, sys
from leanedit import sorry_out

ROOT = os.path.dirname(os.path.dirname(os.path.abspath(__file__)))
scratch, rfile = sys.argv[1], sys.argv[2]
entries = json.load(open(rfile))
idx = [int(x) for x in sys.argv[3:]] or range(len(entries))
base = scratch + "/statements"

def sh(cmd, cwd):
    return subprocess.run(cmd, cwd=cwd, capture_output=True, text=True)

def strip(path, kinds):
    lines = open(path).read().splitlines(keepends=True)
    for i in range(len(lines) - 1, -1, -1):
        if re.match(rf"(?:@\[.*\] *)?(?:private |protected )*({kinds})\b", lines[i]):
            sorry_out(lines, i)
    open(path, "w").write("".join(lines))

if not os.path.exists(base):
    os.makedirs(scratch, exist_ok=True)
    subprocess.run(["cp", "-a", ROOT + "/lean", base], check=True)
    shutil.rmtree(base + "/Verif/Tests")
    for d in ("Model", "Spec", "Proof", "Props"):
        for f in os.listdir(f"{base}/Verif/{d}"):
            if f.endswith(".lean"):
                strip(f"{base}/Verif/{d}/{f}", "example" if (d, f) == ("Spec", "Example.lean") else "theorem|lemma|example")
    r = sh(["lake", "build", "Verif.Axioms"], base)
    print(len(re.findall("error:", r.stdout + r.stderr)), "errors in the stripped copy", flush=True)
    print("\n".join(re.findall(r"error: Verif\S+ .*", r.stdout + r.stderr)[:20]), flush=True)

if __name__ == "__main__":
    for n in idx:
        e = entries[n]
        work = scratch + "/refuting"
        shutil.rmtree(work, ignore_errors=True)
        subprocess.run(["cp", "-a", base, work], check=True)
        f = os.path.join(work, e["file"])
        s = open(f).read()
        if s.count(e["old"]) != 1:
            print(n, "pattern occurs", s.count(e["old"]), "times")
            continue
        open(f, "w").write(s.replace(e["old"], e["new"]))
        r = sh(["lake", "build", e["module"]] + e.get("also", []), work)
        if r.returncode != 0:
            print(n, "does not build:", "\n".join(re.findall(r"error: .*", r.stdout + r.stderr)[:5]), flush=True)
            continue
        open(work + "/Refutation.lean", "w").write(
            "".join(f"import {m}\n" for m in [e["module"]] + e.get("also", [])) + "set_option maxRecDepth 10000\n"
            + e["refutation"] + "\n")
        r = sh(["lake", "env", "lean", "Refutation.lean"], work)
        out = r.stdout + r.stderr
        ok = r.returncode == 0 and "sorry" not in e["refutation"]
        print(n, e["theorem"], "|", e["edit"], "->", "refuted" if ok else "NOT refuted\n" + out[:1500], flush=True)
        with open(scratch + "/refuted.jsonl", "a") as o:
            o.write(json.dumps(dict(e, refuted=ok), ensure_ascii=False) + "\n")
