#!/usr/bin/env python3
"""Write MANIFEST.json from the theorem names in lean/Verif (Cnn_*), and the notes below."""
import json, re, glob, os
root = os.path.dirname(os.path.dirname(os.path.abspath(__file__)))
notes = {}
exec(open(os.path.join(root, "tools", "manifest_notes.py")).read())
byp = {}
for f in sorted(glob.glob(root + "/lean/Verif/**/*.lean", recursive=True)):
    for m in re.finditer(r"^(?:private )?theorem (?:HL\.Props\.)?(C\d\d+)(_\w+)", open(f).read(), re.M):
        byp.setdefault(m.group(1), []).append("HL.Props." + m.group(1) + m.group(2))
props = [json.loads(l)["id"] for l in open(root + "/properties.jsonl")]
claims = []
for p in props:
    ths = byp.get(p)
    if not ths:
        n = notes.get(p)
        if n and n[0] == "not_applicable":
            claims.append({"property": p, "status": n[0], "theorems": [], "note": n[1]})
        continue
    n = notes.get(p)
    part = any(t.endswith("_partial") for t in ths)
    status = n[0] if n and n[0] else ("partial" if part else "proved")
    claims.append({"property": p, "status": status, "theorems": ths, "note": n[1] if n else ""})
json.dump({"claims": claims}, open(root + "/MANIFEST.json", "w"), indent=1)
print(len(claims), "claims;", "without theorems:", [p for p in props if p not in byp])
