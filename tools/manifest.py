#!/usr/bin/env python3
"""Regenerates MANIFEST.json: the theorems Cnn_* of lean/Verif/Props and the notes below."""
import glob, json, os, re
root = os.path.dirname(os.path.dirname(os.path.abspath(__file__)))
notes = json.load(open(os.path.join(root, "tools", "notes.json")))
thms = {}
for f in sorted(glob.glob(root + "/lean/Verif/Props/*.lean")):
    ns = ["Inspector"]
    for m in re.finditer(r"^(?:private )?theorem (C\d\d+)_(\S+)", open(f).read(), re.M):
        thms.setdefault(m.group(1), []).append("Inspector." + m.group(1) + "_" + m.group(2))
claims = []
for line in open(root + "/properties.jsonl"):
    p = json.loads(line)["id"]
    st, note = notes.get(p, ["auto", ""])
    t = thms.get(p, [])
    if st == "auto":
        st = "partial" if any("_partial" in x for x in t) else "proved"
    if not t:
        continue
    claims.append({"property": p, "status": st, "theorems": t, "note": note})
json.dump({"claims": claims}, open(root + "/MANIFEST.json", "w"), indent=1)
print(len(claims), "claims;", "missing:", [json.loads(l)["id"] for l in open(root + "/properties.jsonl") if json.loads(l)["id"] not in thms])
