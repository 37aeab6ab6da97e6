#!/usr/bin/env python3
"""Rebuild MANIFEST.json: every theorem in lean/Verif/Props named cNN_... is listed under property CNN.
Status and note come from tools/status.json (default: proved)."""
import json, re, glob, os
root = os.path.dirname(os.path.dirname(os.path.abspath(__file__)))
props = [json.loads(l)["id"] for l in open(os.path.join(root, "properties.jsonl"))]
st = json.load(open(os.path.join(root, "tools", "status.json")))
th = {p: [] for p in props}
for f in sorted(glob.glob(os.path.join(root, "lean/Verif/Props/*.lean"))):
    src = open(f).read()
    ns = re.search(r"^namespace (\S+)", src, re.M).group(1)
    for m in re.finditer(r"^theorem (c(\d+)_\w+)", src, re.M):
        pid = "C%02d" % int(m.group(2))
        if pid not in th: raise SystemExit("unknown property for " + m.group(1))
        th[pid].append(ns + "." + m.group(1))
claims = []
for p in props:
    s = st.get(p, {})
    status = s.get("status", "proved" if th[p] else "partial")
    note = s.get("note", "" if th[p] else "not yet modelled")
    claims.append({"property": p, "status": status, "theorems": th[p], "note": note})
json.dump({"claims": claims}, open(os.path.join(root, "MANIFEST.json"), "w"), indent=1)
print(sum(len(c["theorems"]) for c in claims), "theorems;", sum(1 for c in claims if not c["theorems"]), "properties without theorem")
