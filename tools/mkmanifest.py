#!/usr/bin/env python3
"""Rebuild MANIFEST.json from properties.jsonl and the theorem names in lean/Verif/Props."""
import json, re, glob, os
root = os.path.dirname(os.path.dirname(os.path.abspath(__file__)))
props = [json.loads(l) for l in open(f"{root}/properties.jsonl") if l.strip()]
notes = json.load(open(f"{root}/tools/notes.json")) if os.path.exists(f"{root}/tools/notes.json") else {}
ths = {}
for f in sorted(glob.glob(f"{root}/lean/Verif/Props/*.lean")):
    for m in re.finditer(r"^theorem (C(\d\d+)_\S+)", open(f).read(), re.M):
        ths.setdefault("C" + m.group(2), []).append("Verif.Props." + m.group(1))
claims = []
for p in props:
    i = p["id"]
    t = ths.get(i, [])
    if not t:
        if i in notes:
            claims.append({"property": i, "status": "not_applicable", "theorems": [], "note": notes[i]})
        continue
    part = any(x.endswith("_partial") for x in t)
    claims.append({"property": i, "status": "partial" if part else "proved", "theorems": t,
                   "note": notes.get(i, "")})
json.dump({"claims": claims}, open(f"{root}/MANIFEST.json", "w"), indent=1)
print(len(claims), "claims;", sum(c["status"] == "partial" for c in claims), "partial; missing:",
      [p["id"] for p in props if p["id"] not in {c["property"] for c in claims}])
