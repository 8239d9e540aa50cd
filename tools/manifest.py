#!/usr/bin/env python3
"""Regenerates MANIFEST.json: theorems named Cnn_* in lean/Verif/Props, notes from tools/notes.json.
A property without theorems is listed as partial with an empty list."""
import json, re, glob, os
root = os.path.dirname(os.path.dirname(os.path.abspath(__file__)))
props = [json.loads(l)["id"] for l in open(f"{root}/properties.jsonl") if l.strip()]
th = {}
for f in sorted(glob.glob(f"{root}/lean/Verif/Props/*.lean")):
    for m in re.finditer(r"^theorem (C\d\d)(_\w+)", open(f).read(), re.M):
        th.setdefault(m.group(1), []).append("Tsetlini." + m.group(1) + m.group(2))
notes = json.load(open(f"{root}/tools/notes.json"))
claims = []
for p in props:
    n = notes.get(p, {})
    t = th.get(p, [])
    claims.append({"property": p, "status": n.get("status", "proved") if t else "partial",
                   "theorems": t, "note": n.get("note", "" if t else "not proved yet")})
json.dump({"claims": claims}, open(f"{root}/MANIFEST.json", "w"), indent=1)
print({s: sum(c["status"] == s for c in claims) for s in ("proved", "partial", "not_applicable")}, "theorems", sum(len(c["theorems"]) for c in claims))
