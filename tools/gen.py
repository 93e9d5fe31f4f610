"""Writes MANIFEST.json, lean/Verif/Audit.lean and lean/Verif.lean from tools/claims.py and the list of modules."""
import json, os, sys
here = os.path.dirname(os.path.abspath(__file__)); root = os.path.dirname(here)
sys.path.insert(0, here)
from claims import CLAIMS
json.dump({"claims": [{"property": k, "status": v[0], "theorems": v[1], "note": v[2]} for k, v in sorted(CLAIMS.items())]},
          open(os.path.join(root, "MANIFEST.json"), "w"), indent=1, ensure_ascii=False)
lean = os.path.join(root, "lean"); mods = []
for d, _, fs in os.walk(os.path.join(lean, "Verif")):
    for f in fs:
        if f.endswith(".lean") and f != "Audit.lean":
            mods.append(os.path.relpath(os.path.join(d, f), lean)[:-5].replace("/", "."))
mods.sort()
open(os.path.join(lean, "Verif.lean"), "w").write("".join(f"import {m}\n" for m in mods + ["Verif.Audit"]))
props = [m for m in mods if m.startswith("Verif.Props.")]
ths = []
for k, v in sorted(CLAIMS.items()):
    for t in v[1]:
        if t not in ths: ths.append(t)
open(os.path.join(lean, "Verif", "Audit.lean"), "w").write(
    "".join(f"import {m}\n" for m in props) + "\n/-! axioms of every property theorem named in MANIFEST.json (generated by tools/gen.py) -/\n\n" +
    "".join(f"#print axioms {t}\n" for t in ths))
