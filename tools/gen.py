#!/usr/bin/env python3
"""Writes lean/Verif.lean (imports of every module) and MANIFEST.json.

Theorems named Cnn_* in lean/Verif/Props are grouped by property; status and notes come
from tools/status.json ({"C01": {"status": ..., "note": ...}})."""
import json, os, re
root = os.path.join(os.path.dirname(os.path.abspath(__file__)), "..")
lean = os.path.join(root, "lean")
mods = []
for d, _, fs in os.walk(os.path.join(lean, "Verif")):
    for f in fs:
        if f.endswith(".lean"):
            rel = os.path.relpath(os.path.join(d, f), lean)[:-5].replace(os.sep, ".")
            if rel != "Verif.Exec.Main":
                mods.append(rel)
mods.sort()
open(os.path.join(lean, "Verif.lean"), "w").write("".join(f"import {m}\n" for m in mods))
status = json.load(open(os.path.join(root, "tools", "status.json")))
thms = {}
for d, _, fs in os.walk(os.path.join(lean, "Verif", "Props")):
    for f in sorted(fs):
        ns = []
        for line in open(os.path.join(d, f)):
            m = re.match(r"\s*namespace (\S+)", line)
            if m: ns.append(m.group(1))
            m = re.match(r"\s*end (\S+)", line)
            if m and ns and m.group(1) == ns[-1]: ns.pop()
            m = re.match(r"\s*theorem ((C\d\d+)_\S+)", line)
            if m: thms.setdefault(m.group(2), []).append(".".join(ns + [m.group(1)]))
claims = []
props = [json.loads(l) for l in open(os.path.join(root, "properties.jsonl"))]
for p in props:
    i = p["id"]
    t = sorted(thms.get(i, []))
    st = status.get(i, {})
    if not t and "status" not in st: continue
    claims.append({"property": i, "status": st.get("status", "proved"), "theorems": t, "note": st.get("note", "")})
for i in thms:
    if i not in [p["id"] for p in props]: print("theorem for unknown property", i)
json.dump({"claims": claims}, open(os.path.join(root, "MANIFEST.json"), "w"), indent=1)
print(len(claims), "claims,", sum(len(c["theorems"]) for c in claims), "theorems; missing:", " ".join(p["id"] for p in props if p["id"] not in [c["property"] for c in claims]))
