"""Writes /verif/MANIFEST.json and /verif/lean/Verif.lean from tools/claims.py and the files present."""
import glob, json, os, re, sys
root = os.path.dirname(os.path.dirname(os.path.abspath(__file__)))
sys.path.insert(0, os.path.join(root, "tools"))
from claims import CLAIMS
lean = os.path.join(root, "lean")
mods = sorted(os.path.relpath(f, lean)[:-5].replace("/", ".")
              for f in glob.glob(lean + "/Verif/**/*.lean", recursive=True))
open(lean + "/Verif.lean", "w").write("".join(f"import {m}\n" for m in mods))
thms = set()
for f in glob.glob(lean + "/Verif/Props/*.lean"):
    for l in open(f):
        m = re.match(r"(?:private )?theorem (C\d\d\w*)", l)
        if m: thms.add(m.group(1))
ids = [json.loads(l)["id"] for l in open(root + "/properties.jsonl")]
out = []
for i in ids:
    status, notes = CLAIMS.get(i, ("partial", "not proved yet"))
    ts = sorted(t for t in thms if t.startswith(i + "_"))
    if not ts and i not in CLAIMS: continue
    out.append({"property": i, "status": status, "theorems": ["Discorpy." + t for t in ts], "note": notes})
json.dump({"claims": out}, open(root + "/MANIFEST.json", "w"), indent=1, ensure_ascii=False)
print(len(out), "claims;", len(thms), "theorems; missing:", [i for i in ids if i not in [o["property"] for o in out]])
