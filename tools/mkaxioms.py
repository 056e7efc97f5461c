#!/usr/bin/env python3
"""Write AXIOMS.md: for every theorem of MANIFEST.json the axioms it depends on and the library laws that
occur among its hypotheses.  Needs a finished `lake build`."""
import json, subprocess, os
ROOT = os.path.join(os.path.dirname(os.path.abspath(__file__)), "..")
claims = json.load(open(ROOT + "/MANIFEST.json"))["claims"]
names = []
for c in claims:
    for t in c["theorems"]:
        if t not in names: names.append(t)
LAWS = ["Verif.BlockCipher.Lawful", "Verif.Hashes.Lawful", "Verif.RsaLib.Lawful", "Verif.Zlib.Lawful",
        "Verif.Spec.LibQuiet", "Verif.JsonBytesLawful"]
src = "import Verif\nopen Lean\n" + r'''
run_cmd do
  let laws : List Name := [LAWS]
  for n in [NAMES] do
    let axs ← Lean.collectAxioms n
    let some ci := (← getEnv).find? n | IO.println s!"MISSING {n}"
    let used := ci.type.getUsedConstantsAsSet
    let l := laws.filter used.contains
    IO.println s!"T|{n}|{",".intercalate (axs.toList.map toString)}|{",".intercalate (l.map toString)}"
'''.replace("NAMES", ", ".join("`" + n for n in names)).replace("LAWS", ", ".join("`" + n for n in LAWS))
open("/tmp/axioms_gen.lean", "w").write(src)
r = subprocess.run(["lake", "env", "lean", "/tmp/axioms_gen.lean"], cwd=ROOT + "/lean", capture_output=True, text=True)
rows = {}
for l in r.stdout.splitlines():
    if l.startswith("T|"):
        _, n, a, w = l.split("|"); rows[n] = (sorted(x for x in a.split(",") if x), [x.replace("Verif.", "") for x in w.split(",") if x])
missing = [n for n in names if n not in rows]
assert not missing, (missing, r.stdout[-2000:], r.stderr[-2000:])
OK = {"propext", "Classical.choice", "Quot.sound"}
assert all(set(a) <= OK for a, _ in rows.values()), [n for n, (a, _) in rows.items() if not set(a) <= OK]
out = ["# Axioms and library laws per theorem", "", "Generated by `tools/mkaxioms.py` (`Lean.collectAxioms`).",
       "P = `propext`, C = `Classical.choice`, Q = `Quot.sound`; no theorem depends on any other axiom.",
       "Laws: the assumptions about code outside the repository that occur as hypotheses (DESIGN.md, section 4).",
       "", "| Property | Theorem | Axioms | Laws assumed |", "|---|---|---|---|"]
sh = {"propext": "P", "Classical.choice": "C", "Quot.sound": "Q"}
for c in claims:
    for t in c["theorems"]:
        a, w = rows[t]
        out.append(f"| {c['property']} | `{t.replace('Verif.', '', 1)}` | {' '.join(sh[x] for x in a) or 'none'} | {', '.join('`%s`' % x for x in w) or '—'} |")
open(ROOT + "/AXIOMS.md", "w").write("\n".join(out) + "\n")
from collections import Counter
print(len(rows), Counter(",".join(a) for a, _ in rows.values()), Counter(",".join(w) for _, w in rows.values()))
