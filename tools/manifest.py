#!/usr/bin/env python3
"""Regenerate lean/Verif.lean and MANIFEST.json.

The theorems of a property Cnn are the theorems named Cnn_* in lean/Verif/Props. A property is partial when one of
its theorems has the suffix _partial or when notes.json says so; notes.json gives the note of each property.
"""
import json, os, re, sys
root = os.path.dirname(os.path.dirname(os.path.abspath(__file__)))
lean = os.path.join(root, "lean")
mods = []
for d, _, fs in os.walk(os.path.join(lean, "Verif")):
    for f in fs:
        if f.endswith(".lean"):
            mods.append(os.path.relpath(os.path.join(d, f), lean)[:-5].replace(os.sep, "."))
order = {"Model": 0, "Spec": 1, "Lemmas": 2, "Props": 3}
mods.sort(key=lambda m: (order.get(m.split(".")[1], 9), m))
with open(os.path.join(lean, "Verif.lean"), "w") as o:
    o.write("".join(f"import {m}\n" for m in mods))
thms = {}
for m in mods:
    if m.split(".")[1] != "Props":
        continue
    text = open(os.path.join(lean, m.replace(".", os.sep) + ".lean")).read()
    ns = re.search(r"^namespace (\S+)", text, re.M).group(1)
    for t in re.findall(r"^theorem (C\d+_\S+)", text, re.M):
        thms.setdefault(t.split("_")[0], []).append(f"{ns}.{t}")
notes = json.load(open(os.path.join(root, "tools", "notes.json")))
claims = []
for line in open(os.path.join(root, "properties.jsonl")):
    p = json.loads(line)["id"]
    if p in thms:
        n = notes.get(p, {})
        status = n.get("status") or ("partial" if any(t.endswith("_partial") for t in thms[p]) else "proved")
        claims.append({"property": p, "status": status, "theorems": thms[p], "note": n.get("note", "")})
    elif p in notes and notes[p].get("status") == "not_applicable":
        claims.append({"property": p, "status": "not_applicable", "theorems": [], "note": notes[p]["note"]})
with open(os.path.join(root, "MANIFEST.json"), "w") as o:
    json.dump({"claims": claims}, o, indent=1, ensure_ascii=False)
    o.write("\n")
with open("/tmp/axioms.lean", "w") as o:
    o.write("import Verif\n" + "".join(f"#print axioms {t}\n" for c in claims for t in c["theorems"]))
print(len(claims), "claims", sum(len(c["theorems"]) for c in claims), "theorems;",
      sum(c["status"] == "proved" for c in claims), "proved")
