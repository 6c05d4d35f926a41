#!/usr/bin/env python3
"""Write MANIFEST.json: theorem names are collected from lean/Verif/Props/*.lean by their Cnn_ prefix,
statuses and notes come from scripts/claims.json."""
import glob, json, os, re
root = os.path.dirname(os.path.dirname(os.path.abspath(__file__)))
names = {}
for f in sorted(glob.glob(root + "/lean/Verif/Props/*.lean")):
    for m in re.finditer(r"^theorem ((C\d\d)_\w+)", open(f).read(), re.M):
        names.setdefault(m.group(2), []).append("SVB.Props." + m.group(1))
info = json.load(open(root + "/scripts/claims.json"))
claims = []
for line in open(root + "/properties.jsonl"):
    pid = json.loads(line)["id"]
    st, note = info.get(pid, ["partial", "not yet stated"])
    claims.append({"property": pid, "status": st, "theorems": names.get(pid, []), "note": note})
json.dump({"claims": claims}, open(root + "/MANIFEST.json", "w"), indent=1)
for c in claims:
    if not c["theorems"]:
        print("no theorems:", c["property"], c["status"])
