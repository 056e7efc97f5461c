"""Run the mutants of /verif/seeded/mutants_*.py in a scratch copy and append the results to
/verif/seeded/LOG.jsonl.  usage: mutate.py FILE [ID ...]"""
import sys, os, re, json, subprocess, importlib.util, time
SCR = "/tmp/scr/mut"
spec = importlib.util.spec_from_file_location("m", sys.argv[1])
mod = importlib.util.module_from_spec(spec); spec.loader.exec_module(mod)
only = sys.argv[2:]
deps = json.load(open("/tmp/scr/deps.json"))
rev = {}
for t, ds in deps.items():
    for d in ds: rev.setdefault(d, set()).add(t)
done = set()
LOG = "/verif/seeded/LOG.jsonl"
if os.path.exists(LOG):
    done = {json.loads(l)["id"] for l in open(LOG) if l.strip()}

def sync():
    os.makedirs(SCR, exist_ok=True)
    subprocess.run(f"rm -rf {SCR}/lean && cp -a /tmp/scr/pristine {SCR}/lean", shell=True, check=True)

def decl_at(path, line):
    ls = open(path).read().split("\n")
    i = min(line, len(ls)) - 1
    # an error may be reported on the doc comment or header of the declaration itself
    while i >= 0:
        m = re.match(r"\s*(?:@\[[^\]]*\]\s*)?(?:private |noncomputable |protected )*(theorem|lemma|def|abbrev|instance|example|structure|inductive)\b\s*([^\s:({\[]*)", ls[i])
        if m: return m.group(1), m.group(2)
        i -= 1
    return "?", "?"

def namespace_at(path, line):
    st = []
    for l in open(path).read().split("\n")[:line]:
        w = l.split()
        if l.startswith("namespace "): st.append(w[1])
        elif (l.startswith("section") or l.startswith("mutual") or l.startswith("noncomputable section")): st.append("")
        elif (l == "end" or l.startswith("end ")) and st: st.pop()
    return ".".join(x for x in st if x)

START = re.compile(r"(?:@\[|/--|/-!|theorem |lemma |def |abbrev |instance |example |structure |inductive |end\b|namespace |section|variable|open |private |noncomputable |protected |mutual)")

def give_up(path, line):
    """Replace the proof of the theorem around the line by sorry, so that the later modules get built."""
    ls = open(path).read().split("\n")
    i = min(line, len(ls)) - 1
    while i >= 0 and not re.match(r"\s*(?:@\[[^\]]*\]\s*)?(?:private |protected )*(theorem|lemma|example)\b", ls[i]): i -= 1
    j = i + 1
    while j < len(ls) and not START.match(ls[j]): j += 1
    body = "\n".join(ls[i:j])
    m = re.search(r":= by\b|:=\s*\n|\n  \| ", body) or re.search(r":= ", body)
    if i < 0 or not m: return False
    new = body[:m.start()] + " := by sorry\n"
    if new == body: return False
    ls[i:j] = new.split("\n")
    open(path, "w").write("\n".join(ls))
    return True

def build(mu):
    """Build; as long as the claim has not failed, go on past the theorems that do fail."""
    failed, other = set(), set()
    first = modules(mu)      # the modules with the theorems of the claim come first: most mutants end there
    for rnd in range(24):
        r = subprocess.run(["lake", "build"] + first, cwd=SCR + "/lean", capture_output=True, text=True)
        errs = re.findall(r"^error: (Verif/\S+\.lean):(\d+):\d+", r.stdout, re.M)
        if r.returncode and not errs: continue   # a process was killed: build again
        if r.returncode == 0 and first: first = []; continue
        todo = {}
        for f, l in errs:
            q = f"{SCR}/lean/{f}"
            k, n = decl_at(q, int(l))
            if k in ("theorem", "lemma"):
                failed.add((f, namespace_at(q, int(l)) + "." + n)); todo[(q, n)] = int(l)
            else:
                other.add(f"{k} {n} ({f}:{l})")
                if k == "example": todo[(q, f"example {l}")] = int(l)
        claims = claimed(failed)
        if hits(mu, claims) or not todo or any(not o.startswith("example") for o in other): break
        ok = [give_up(q, l) for (q, n), l in sorted(todo.items(), key=lambda x: -x[1])]
        if not any(ok): break
    return r, failed, other

def modules(mu):
    want = mu["claim"].split(":")[0].replace(",", " ").split()
    r = subprocess.run(["grep", "-rlE", "^theorem (%s)_" % "|".join(want), "Verif/Props"], cwd=SCR + "/lean", capture_output=True, text=True)
    return [x[:-5].replace("/", ".") for x in r.stdout.split()]

def claimed(failed):
    claims = set()
    for f, n in failed:
        claims |= rev.get(n, set())
        if n in deps: claims.add(n)
    return claims

def hits(mu, claims):
    want = mu["claim"].split(":")[0].replace(",", " ").split()
    return [w for w in want if any(x.split(".")[-1].startswith(w + "_") for x in claims)]

for mu in mod.MUTANTS:
    if (only and mu["id"] not in only) or (not only and mu["id"] in done): continue
    sync()
    p = f"{SCR}/lean/Verif/{mu['file']}"
    t = open(p).read()
    assert t.count(mu["old"]) == 1, (mu["id"], t.count(mu["old"]))
    open(p, "w").write(t.replace(mu["old"], mu["new"]))
    t0 = time.time()
    r, failed, other = build(mu)
    claims = claimed(failed)
    res = dict(id=mu["id"], definition=mu["def"], file="Verif/" + mu["file"], edit={"from": mu["old"], "to": mu["new"]},
        claim=mu["claim"], failed_declarations=sorted(n for _, n in failed), failed_other=sorted(other),
        theorems_failed=sorted(claims), tightened=mu.get("tightened", []), note=mu.get("note", ""))
    hit = hits(mu, claims)
    res["verdict"] = "killed" if hit else ("other theorems failed" if claims else "SURVIVED")
    print(mu["id"], res["verdict"], hit, len(claims), "direct:", sorted(n for _, n in failed)[:6], sorted(other)[:3], f"{time.time()-t0:.0f}s", flush=True)
    if not only:
        open(LOG, "a").write(json.dumps(res, ensure_ascii=False) + "\n")
    else:
        print(r.stdout[-3000:] if os.environ.get("V") else "")
