#!/usr/bin/env python3
"""Write MANIFEST.json from the theorems named Cnn_* in lean/Verif/Props and the notes below."""
import json, re, pathlib
root = pathlib.Path(__file__).resolve().parent.parent
notes = json.load(open(root / "tools" / "notes.json"))
thms = {}
for f in sorted((root / "lean" / "Verif" / "Props").glob("*.lean")):
    src = f.read_text()
    ns = re.search(r"^namespace (\S+)", src, re.M).group(1)
    for m in re.finditer(r"^theorem (C\d\d)_(\S+)", src, re.M):
        thms.setdefault(m.group(1), []).append(f"{ns}.{m.group(1)}_{m.group(2)}")
claims = []
for line in open(root / "properties.jsonl"):
    p = json.loads(line)["id"]
    n = notes.get(p)
    if p in thms and n:
        claims.append({"property": p, "status": n["status"], "theorems": thms[p], "note": n["note"]})
    elif n and n["status"] == "not_applicable":
        claims.append({"property": p, "status": "not_applicable", "theorems": [], "note": n["note"]})
    elif p in thms:
        print("no note for", p)
json.dump({"claims": claims}, open(root / "MANIFEST.json", "w"), indent=1)
print(len(claims), "claims")
