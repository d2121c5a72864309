#!/usr/bin/env python3
"""Regenerates lean/Verif.lean, lean/Verif/Axioms.lean and MANIFEST.json from the sources and claims.json."""
import json, os, re
root = os.path.dirname(os.path.dirname(os.path.abspath(__file__)))
lean = os.path.join(root, "lean")
mods = []
for d, _, fs in os.walk(os.path.join(lean, "Verif")):
    for f in fs:
        if f.endswith(".lean"):
            rel = os.path.relpath(os.path.join(d, f), lean)[:-5]
            mods.append(rel.replace("/", "."))
mods.sort()
if "Verif.Axioms" not in mods:
    mods.append("Verif.Axioms"); mods.sort()
open(os.path.join(lean, "Verif.lean"), "w").write("".join(f"import {m}\n" for m in mods))
props = [m for m in mods if m.startswith("Verif.Props.")]
thms = {}
for m in props:
    src = open(os.path.join(lean, m.replace(".", "/") + ".lean")).read()
    for t in re.findall(r"^(?:@\[[^\]]*\]\s*)?theorem (c\d\d+_\w+)", src, re.M):
        thms.setdefault("C" + t[1:].split("_")[0], []).append(t)
with open(os.path.join(lean, "Verif", "Axioms.lean"), "w") as f:
    f.write("".join(f"import {m}\n" for m in props))
    f.write("\n/-! Axioms of every property theorem (generated by tools/gen.py). -/\n\nnamespace Snips\n\n")
    for p in sorted(thms, key=lambda p: int(p[1:])):
        for t in thms[p]:
            f.write(f"#print axioms {t}\n")
    f.write("\nend Snips\n")
claims = json.load(open(os.path.join(root, "tools", "claims.json")))
ids = [json.loads(l)["id"] for l in open(os.path.join(root, "properties.jsonl"))]
out = []
for i in ids:
    c = claims.get(i)
    ts = ["Snips." + t for t in thms.get(i, [])]
    if c is None:
        out.append({"property": i, "status": "partial", "theorems": ts,
                    "note": "Not finished yet." if not ts else "In progress."})
    else:
        out.append({"property": i, "status": c["status"], "theorems": ts, "note": c["note"]})
json.dump({"claims": out}, open(os.path.join(root, "MANIFEST.json"), "w"), indent=1, ensure_ascii=False)
print({i: len(thms.get(i, [])) for i in ids})
