#!/usr/bin/env python3
"""For every function, method and module-level table of /repo/src/jwkest: the Lean definitions of
lean/Verif/{Py,Model} whose comment cites lines inside it.  Reads the Python as text (ast.parse), runs nothing.
Output: COVERAGE.md"""
import ast, os, re, glob
ROOT = os.path.join(os.path.dirname(os.path.abspath(__file__)), "..")
SRC = "/repo/src/jwkest"
cites = []   # (py, a, b, lean decl)
for f in sorted(glob.glob(ROOT + "/lean/Verif/Model/*.lean") + glob.glob(ROOT + "/lean/Verif/Py/*.lean")):
    t = open(f).read()
    t = t[t.find("\n-/\n") + 1:] if "/-\n" in t[:200] else t     # skip the file header comment
    for m in re.finditer(r"/--(.*?)-/\s*(?:@\[[^\]]*\]\s*)?(?:private |noncomputable |protected |partial )*(def|structure|inductive|abbrev|theorem)?\s*([^\s:({\[|]*)", t, re.S):
        doc, kind, name = m.group(1), m.group(2), m.group(3)
        if kind == "theorem": continue
        name = name if kind else "(field) " + name
        for c in re.finditer(r"([\w]+\.py):((?:\d+(?:-\d+)?)(?:,\s*\d+(?:-\d+)?)*)", doc):
            for r in re.findall(r"(\d+)(?:-(\d+))?", c.group(2)):
                cites.append((c.group(1), int(r[0]), int(r[1] or r[0]), name))
rows = []
def span(n): return n.lineno, n.end_lineno
def walk(py, body, prefix):
    for n in body:
        if isinstance(n, (ast.FunctionDef,)):
            a, b = span(n)
            if n.body and isinstance(n.body[0], ast.Expr) and isinstance(getattr(n.body[0], "value", None), ast.Constant) and len(n.body) > 1:
                s = n.body[1].lineno
            else: s = n.body[0].lineno
            rows.append((py, prefix + n.name, a, s, b))
        elif isinstance(n, ast.ClassDef):
            exc = all(isinstance(x, (ast.Pass, ast.Expr)) or getattr(x, "name", "") in ("__init__", "__str__") for x in n.body) and any("Exception" in ast.unparse(x) or "Invalid" in ast.unparse(x) for x in n.bases)
            if exc: continue
            walk(py, n.body, prefix + n.name + ".")
        elif isinstance(n, ast.Assign) and isinstance(n.value, (ast.Dict, ast.Tuple, ast.List)) and prefix == "":
            rows.append((py, ast.unparse(n.targets[0]) + " (table)", n.lineno, n.lineno, n.end_lineno))
for p in sorted(glob.glob(SRC + "/*.py")):
    walk(os.path.basename(p), ast.parse(open(p).read()).body, "")
notes = {}
exec(open(os.path.join(os.path.dirname(os.path.abspath(__file__)), "coverage_notes.py")).read())
out = ["# Which parts of the code are modelled", "",
       "Generated by `tools/coverage.py` from the citations in the comments of the Lean definitions.",
       "A function without a definition has the reason why it is not modelled.", ""]
nm = nt = 0; last = None; missing = []
for py, name, a, s, b in rows:
    if py != last:
        out += ["", "## " + py, "", "| Python | lines | Lean definitions |", "|---|---|---|"]; last = py
    ds = []
    for c in cites:
        if c[0] == py and c[1] <= b and c[2] >= a and (c[1] >= a or c[2] <= b or True):
            # a citation spanning several functions counts for each of them
            if c[3] not in ds: ds.append(c[3])
    nt += 1
    k = notes.get((py, name))
    if ds: nm += 1; txt = ", ".join("`%s`" % d for d in ds) + (" — " + k if k and not k.startswith("not modelled") else "")
    else:
        txt = "— " + (k or "MISSING REASON")
        if not k: missing.append((py, name, a, b))
    out.append(f"| `{name}` | {a}-{b} | {txt} |")
out.insert(5, f"{nm} of {nt} functions, methods and tables are modelled.")
open(ROOT + "/COVERAGE.md", "w").write("\n".join(out) + "\n")
print(nm, nt); [print(m) for m in missing]
