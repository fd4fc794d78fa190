#!/usr/bin/env python3
"""Regenerate MANIFEST.json and lean/Verif/Axioms.lean from the property theorems
(theorems named Cnn_* in lean/Verif/Props) and the status table below."""
import glob, json, os, re

ROOT = os.path.dirname(os.path.dirname(os.path.abspath(__file__)))

# property -> (status, note); a property without theorem is left out
STATUS = json.load(open(os.path.join(ROOT, "tools", "status.json")))

names = {}
order = []
mods = []
for f in sorted(glob.glob(os.path.join(ROOT, "lean/Verif/Props/*.lean"))):
    mods.append("Verif.Props." + os.path.basename(f)[:-5])
    ns = []
    for line in open(f):
        m = re.match(r"namespace (\S+)", line)
        if m:
            ns.append(m.group(1))
        m = re.match(r"end (\S+)", line)
        if m and ns and ns[-1] == m.group(1):
            ns.pop()
        m = re.match(r"(?:@\[[^\]]*\] *)?theorem ((C\d+)_\S+)", line)
        if m:
            full = ".".join(ns + [m.group(1)])
            names.setdefault(m.group(2), []).append(full)
            order.append(full)

ids = [json.loads(l)["id"] for l in open(os.path.join(ROOT, "properties.jsonl"))]
claims = []
for i in ids:
    st, note = STATUS.get(i, ["proved", ""])
    if i in names or st == "not_applicable":
        claims.append({"property": i, "status": st, "theorems": names.get(i, []), "note": note})
json.dump({"claims": claims}, open(os.path.join(ROOT, "MANIFEST.json"), "w"), indent=1, ensure_ascii=False)
with open(os.path.join(ROOT, "lean/Verif/Axioms.lean"), "w") as o:
    for m in mods:
        o.write(f"import {m}\n")
    o.write("\n/-! The axioms each property theorem depends on (generated by tools/manifest.py). -/\n\n")
    for n in order:
        o.write(f"#print axioms {n}\n")
fs = sorted(glob.glob(os.path.join(ROOT, "lean/Verif/**/*.lean"), recursive=True))
with open(os.path.join(ROOT, "lean/Verif.lean"), "w") as o:
    for f in fs:
        o.write("import " + os.path.relpath(f, os.path.join(ROOT, "lean"))[:-5].replace("/", ".") + "\n")
missing = [i for i in ids if i not in names]
print(len(claims), "claims,", len(order), "theorems; missing:", " ".join(missing))
