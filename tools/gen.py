#!/usr/bin/env python3
"""Regenerate lean/Verif.lean (imports of every module) and MANIFEST.json
(theorems named Cxx_* found in lean/Verif/Props, notes from tools/notes.json)."""
import json, os, re
root = os.path.dirname(os.path.dirname(os.path.abspath(__file__)))
lean = os.path.join(root, "lean")
mods = []
for d, _, fs in os.walk(os.path.join(lean, "Verif")):
    for f in fs:
        if f.endswith(".lean"):
            mods.append(os.path.relpath(os.path.join(d, f), lean)[:-5].replace("/", "."))
with open(os.path.join(lean, "Verif.lean"), "w") as o:
    for m in sorted(mods):
        o.write("import %s\n" % m)
thms = {}
for d, _, fs in os.walk(os.path.join(lean, "Verif", "Props")):
    for f in sorted(fs):
        for m in re.finditer(r"^theorem (C\d\d+)_(\w+)", open(os.path.join(d, f)).read(), re.M):
            thms.setdefault(m.group(1), []).append("Bezman.Props.%s_%s" % m.groups())
notes = json.load(open(os.path.join(root, "tools", "notes.json")))
claims = []
for line in open(os.path.join(root, "properties.jsonl")):
    pid = json.loads(line)["id"]
    n = notes.get(pid, {})
    ts = sorted(thms.get(pid, []))
    if not ts:
        status, note = "partial", n.get("note", "no theorem yet")
        print("no theorem:", pid)
    else:
        status, note = n.get("status", "proved"), n.get("note", "")
    claims.append({"property": pid, "status": status, "theorems": ts, "note": note})
json.dump({"claims": claims}, open(os.path.join(root, "MANIFEST.json"), "w"), indent=1, ensure_ascii=False)
