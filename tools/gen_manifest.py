#!/usr/bin/env python3
"""Writes /verif/MANIFEST.json: the theorems of a property are those of Verif/Props whose names start with its id."""
import json, os, re, glob
root = os.path.join(os.path.dirname(os.path.abspath(__file__)), "..")
props = [json.loads(l) for l in open(os.path.join(root, "properties.jsonl"))]
thms = {}
for f in sorted(glob.glob(os.path.join(root, "lean/Verif/Props/*.lean"))):
    text = open(f).read()
    for m in re.finditer(r"^theorem ((?:C\d\d_)+\w+)", text, re.M):
        ns = re.findall(r"^namespace (\S+)", text[:m.start()], re.M)[-1]
        for c in re.findall(r"C\d\d(?=_)", m.group(1)):
            thms.setdefault(c, []).append(ns + "." + m.group(1))
notes = json.load(open(os.path.join(root, "tools/notes.json")))
claims = []
for p in props:
    i = p["id"]
    n = notes.get(i, {})
    ts = thms.get(i, []) + n.get("extra", [])
    assert ts, i
    claims.append(dict(property=i, status=n.get("status", "proved"), theorems=ts, note=n.get("note", "")))
for c in thms:
    assert any(p["id"] == c for p in props), c
json.dump({"claims": claims}, open(os.path.join(root, "MANIFEST.json"), "w"), indent=1, ensure_ascii=False)
print(len(claims), sum(len(c["theorems"]) for c in claims))
