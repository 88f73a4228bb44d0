#!/usr/bin/env python3
"""Write MANIFEST.json from tools/claims.json, checking that every named theorem exists."""
import json, re, glob, sys

root = "/verif"
src = ""
for f in glob.glob(root + "/lean/Verif/Props/*.lean"):
    src += open(f).read()
thms = set(re.findall(r"^theorem ([\w.']+)", src, re.M))
claims = json.load(open(root + "/tools/claims.json"))
ids = [json.loads(l)["id"] for l in open(root + "/properties.jsonl")]
seen, bad, used = {}, [], set()
for c in claims:
    seen[c["property"]] = c
    for t in c["theorems"]:
        if t not in thms:
            bad.append((c["property"], t))
        used.add(t)
if bad:
    print("unknown theorems:", bad)
    sys.exit(1)
out = [seen[i] for i in ids if i in seen]
for c in out:
    c["theorems"] = ["Zcc." + t for t in c["theorems"]]
json.dump({"claims": out}, open(root + "/MANIFEST.json", "w"), indent=1)
missing = [i for i in ids if i not in seen]
print("claims:", len(out), "missing:", missing)
print("theorems named c.. and not used:", sorted(t for t in thms if re.match(r"c\d\d", t) and t not in used))
