#!/usr/bin/env python3
"""Regenerates MANIFEST.json from the property theorems in lean/Verif/Props.

A theorem `Cxx_name` belongs to property Cxx. Status and notes that differ from
the default ("proved") are read from tools/status.json.
"""
import json, re, glob, os
root = os.path.dirname(os.path.dirname(os.path.abspath(__file__)))
status = json.load(open(os.path.join(root, "tools/status.json")))
thms = {}
mods = []
for f in sorted(glob.glob(os.path.join(root, "lean/Verif/**/*.lean"), recursive=True)):
    mods.append(os.path.relpath(f, os.path.join(root, "lean"))[:-5].replace("/", "."))
    if "/Props/" not in f:
        continue
    for m in re.finditer(r"^theorem (C\d\d+)_(\w+'?)", open(f).read(), re.M):
        thms.setdefault(m.group(1), []).append("Openspace.%s_%s" % m.groups())
claims = []
for line in open(os.path.join(root, "properties.jsonl")):
    d = json.loads(line)
    i = d["id"]
    st = status.get(i, {})
    if i not in thms and st.get("status") != "not_applicable":
        continue
    claims.append({"property": i, "status": st.get("status", "proved"),
                   "theorems": thms.get(i, []), "note": st.get("note", d["title"])})
json.dump({"claims": claims}, open(os.path.join(root, "MANIFEST.json"), "w"), indent=1, ensure_ascii=False)
open(os.path.join(root, "lean/Verif.lean"), "w").write("".join("import %s\n" % m for m in mods))
print(len(claims), "claims,", sum(len(v) for v in thms.values()), "theorems")
print("missing:", [json.loads(l)["id"] for l in open(os.path.join(root, "properties.jsonl")) if json.loads(l)["id"] not in thms])
