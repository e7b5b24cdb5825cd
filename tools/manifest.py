#!/usr/bin/env python3
"""Write MANIFEST.json: the theorems of every property are those named Cnn_* in lean/Verif/Props*.lean."""
import glob, json, re, os
root = os.path.dirname(os.path.dirname(os.path.abspath(__file__)))
notes = json.load(open(os.path.join(root, "tools", "notes.json")))
thms = {}
for f in sorted(glob.glob(os.path.join(root, "lean/Verif/Props*.lean"))):
    text = open(f).read()
    ns = re.search(r"^namespace (\S+)", text, re.M).group(1)
    for m in re.finditer(r"^theorem (C\d\d)_(\w+)", text, re.M):
        thms.setdefault(m.group(1), []).append("%s.%s_%s" % ((ns,) + m.groups()))
claims = []
for l in open(os.path.join(root, "properties.jsonl")):
    i = json.loads(l)["id"]
    t = thms.get(i, [])
    n = notes.get(i, {})
    st = n.get("status") or ("partial" if not t or any("_partial" in x for x in t) else "proved")
    if not t: continue
    claims.append({"property": i, "status": st, "theorems": t, "note": n.get("note", "")})
json.dump({"claims": claims}, open(os.path.join(root, "MANIFEST.json"), "w"), indent=1)
print(len(claims), "claims", sum(len(c["theorems"]) for c in claims), "theorems;",
      "no theorem:", [json.loads(l)["id"] for l in open(os.path.join(root, "properties.jsonl")) if json.loads(l)["id"] not in thms])
