#!/usr/bin/env python3
"""Regenerate MANIFEST.json from the theorem names in lean/Verif/Props and the notes below."""
import glob, json, os, re

root = os.path.dirname(os.path.dirname(os.path.abspath(__file__)))
notes = json.load(open(os.path.join(root, "tools", "notes.json")))
names = {}
for f in sorted(glob.glob(os.path.join(root, "lean/Verif/Props/*.lean"))):
    for m in re.finditer(r"^theorem ((C\d{2,3})\w*)", open(f).read(), re.M):
        names.setdefault(m.group(2), []).append("Egts." + m.group(1))
claims = []
for line in open(os.path.join(root, "properties.jsonl")):
    i = json.loads(line)["id"]
    thms = names.get(i, [])
    if not thms:
        print("no theorem yet:", i)
        continue
    partial = any(t.endswith("_partial") or t.endswith("_false") for t in thms)
    claims.append({"property": i, "status": "partial" if partial else "proved", "theorems": thms,
                   "note": notes.get(i, "")})
json.dump({"claims": claims}, open(os.path.join(root, "MANIFEST.json"), "w"), indent=1, ensure_ascii=False)
print(len(claims), "claims", sum(len(c["theorems"]) for c in claims), "theorems")
