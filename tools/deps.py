"""Write /tmp/scr/deps.json: for every theorem of MANIFEST.json the Verif constants its statement and
proof depend on (transitively)."""
import json, subprocess
m = json.load(open("/verif/MANIFEST.json"))
names = [t for c in m["claims"] for t in c["theorems"]]
src = "import Verif\nopen Lean\n" + r'''
def own (env : Environment) (c : Name) : Bool :=
  match env.getModuleIdxFor? c with
  | some i => (env.header.moduleNames[i.toNat]!).getRoot == `Verif
  | none => false
run_cmd do
  let env ← getEnv
  for (n, ci) in env.constants.map₁.toList do
    if own env n then
      let used := ci.getUsedConstantsAsSet.toList.filter (own env)
      IO.println s!"DEP\t{n}\t{"\t".intercalate (used.map toString)}"
'''
open("/tmp/scr/deps.lean", "w").write(src)
r = subprocess.run(["lake", "env", "lean", "/tmp/scr/deps.lean"], cwd="/verif/lean", capture_output=True, text=True)
adj = {}
for l in r.stdout.splitlines():
    w = l.split("\t")
    if w[0] == "DEP": adj[w[1]] = [x for x in w[2:] if x]
out = {}
for n in names:
    if n not in adj: continue
    seen, todo = set(), [n]
    while todo:
        x = todo.pop()
        if x in seen: continue
        seen.add(x)
        todo += adj.get(x, [])
    out[n] = sorted(seen)
print(len(names), len(out), r.stdout[:300] if not out else "", r.stderr[:300])
json.dump(out, open("/tmp/scr/deps.json", "w"))
