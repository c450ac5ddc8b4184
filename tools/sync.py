#!/usr/bin/env python3
"""Regenerate lean/Verif.lean and MANIFEST.json from the sources.

Theorems named Cnn_* in lean/Verif/Props belong to property Cnn.  Notes and explicit statuses are in
tools/notes.json: {"C10": {"status": "partial", "note": "..."}}.  Without an explicit status a
property is "partial" if one of its theorems has the suffix _partial, else "proved".
"""
import json, os, re
root = os.path.dirname(os.path.dirname(os.path.abspath(__file__)))
lean = os.path.join(root, "lean")
mods = []
for d, _, fs in os.walk(os.path.join(lean, "Verif")):
    for f in fs:
        if f.endswith(".lean"):
            p = os.path.relpath(os.path.join(d, f), lean)
            mods.append(p[:-5].replace(os.sep, "."))
order = {"Py": 0, "Model": 1, "Spec": 2, "Lemmas": 3, "Props": 4, "Exec": 5}
mods.sort(key=lambda m: (order.get(m.split(".")[1], 9), m))
with open(os.path.join(lean, "Verif.lean"), "w") as fh:
    fh.write("".join(f"import {m}\n" for m in mods))
notes = json.load(open(os.path.join(root, "tools", "notes.json")))
props = [json.loads(l)["id"] for l in open(os.path.join(root, "properties.jsonl")) if l.strip()]
thms = {p: [] for p in props}
for m in mods:
    if not m.startswith("Verif.Props."):
        continue
    txt = open(os.path.join(lean, m.replace(".", os.sep) + ".lean")).read()
    ns = re.search(r"^namespace (\S+)", txt, re.M)
    ns = ns.group(1) + "." if ns else ""
    for t in re.findall(r"^(?:private )?theorem (C\d\d+_\w+'?)", txt, re.M):
        thms.setdefault(t.split("_")[0], []).append(ns + t)
claims = []
for p in props:
    n = notes.get(p, {})
    ts = thms[p]
    st = n.get("status")
    if not ts and st is None:
        continue
    if st is None:
        st = "partial" if any("_partial" in t or t.endswith("_false") for t in ts) else "proved"
    claims.append({"property": p, "status": st, "theorems": ts, "note": n.get("note", "")})
json.dump({"claims": claims}, open(os.path.join(root, "MANIFEST.json"), "w"), indent=1)
print(len(claims), "claims of", len(props), "; missing:", [p for p in props if p not in {c["property"] for c in claims}])
