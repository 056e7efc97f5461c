#!/usr/bin/env python3
"""Prints, for every `file.py:a-b` citation in the Lean sources, the first and last cited line."""
import re, glob, os, sys
root = os.path.join(os.path.dirname(os.path.abspath(__file__)), "../lean")
os.chdir(root)
for f in sorted(glob.glob("Verif/**/*.lean", recursive=True)):
    for n, l in enumerate(open(f), 1):
        for py, a, b in re.findall(r"([\w/]+\.py):(\d+)(?:-(\d+))?", l):
            p = "/repo/" + py if py.startswith("script/") else "/repo/src/jwkest/" + os.path.basename(py)
            if not os.path.exists(p):
                print(f"{f}:{n} NOFILE {py}"); continue
            L = open(p).read().split("\n")
            s, e = int(a), int(b or a)
            if e > len(L): print(f"{f}:{n} BEYOND {py}:{a}-{b}"); continue
            print(f"{f}:{n} {os.path.basename(py)}:{s}-{e} | {L[s-1].strip()[:44]} ... {L[e-1].strip()[:44]}")
