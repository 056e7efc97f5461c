#!/usr/bin/env python3
"""Generate MANIFEST.json.  Usage: python3 tools/mkmanifest.py
With --axioms, also run #print axioms on every listed theorem (needs a finished lake build)."""
import json, subprocess, sys, os
HERE = os.path.dirname(os.path.abspath(__file__))
ROOT = os.path.dirname(HERE)
claims = []
def c(prop, status, theorems, note=""):
    claims.append({"property": prop, "status": status,
                   "theorems": ["Verif." + t for t in theorems.split()], "note": note})
exec(open(os.path.join(HERE, "claims.py")).read())
claims.sort(key=lambda d: d["property"])
json.dump({"claims": claims}, open(os.path.join(ROOT, "MANIFEST.json"), "w"), indent=1, ensure_ascii=False)
ids = [json.loads(l)["id"] for l in open(os.path.join(ROOT, "properties.jsonl"))]
print("unclaimed:", sorted(set(ids) - {d["property"] for d in claims}))
print("unknown:", sorted({d["property"] for d in claims} - set(ids)))
if "--axioms" in sys.argv:
    src = "import Verif\n" + "".join("#print axioms %s\n" % t for d in claims for t in d["theorems"])
    f = "/tmp/axioms_check.lean"
    open(f, "w").write(src)
    out = subprocess.run(["lake", "env", "lean", f], cwd=os.path.join(ROOT, "lean"), capture_output=True, text=True).stdout
    bad = False
    import re
    n = 0
    for m in re.finditer(r"'([^']+)' (depends on axioms: \[([^\]]*)\]|does not depend)", out):
        n += 1
        ax = {a.strip() for a in (m.group(3) or "").split(",") if a.strip()}
        if not ax <= {"propext", "Classical.choice", "Quot.sound"}:
            bad = True
            print("BAD", m.group(1), ax)
    if "error:" in out:
        print(out[:3000])
    print("checked", n, "theorems", "BAD" if bad else "axioms ok")
