#!/usr/bin/env python3
"""Regenerates /verif/MANIFEST.json from the theorem names (Cnn_...) in lean/Verif/Props and the notes below."""
import re, glob, json, os
ROOT = os.path.dirname(os.path.dirname(os.path.abspath(__file__)))
notes = json.load(open(os.path.join(ROOT, "tools", "notes.json")))
thms = {}
for f in sorted(glob.glob(os.path.join(ROOT, "lean/Verif/Props/**/*.lean"), recursive=True)):
    ns = ["Verif"]
    for line in open(f):
        m = re.match(r"\s*(?:@\[[^\]]*\]\s*)?theorem\s+((C\d\d+)_\S+)", line)
        if m:
            thms.setdefault(m.group(2), []).append("Verif." + m.group(1))
claims = []
ids = [json.loads(l)["id"] for l in open(os.path.join(ROOT, "properties.jsonl")) if l.strip()]
for i in ids:
    n = notes.get(i, {})
    if i in thms:
        st = n.get("status", "proved")
        claims.append({"property": i, "status": st, "theorems": thms[i], "note": n.get("note", "")})
    elif "status" in n:
        claims.append({"property": i, "status": n["status"], "theorems": [], "note": n.get("note", "")})
json.dump({"claims": claims}, open(os.path.join(ROOT, "MANIFEST.json"), "w"), indent=1, ensure_ascii=False)
print(len(claims), "claims,", sum(len(c["theorems"]) for c in claims), "theorems; missing:",
      [i for i in ids if i not in {c["property"] for c in claims}])
