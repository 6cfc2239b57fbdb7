#!/usr/bin/env python3
"""Check every `/-- path:a-b` citation before a `def Name`: the cited lines must
contain the Go declaration of that name and start/end at its braces."""
import re, sys, glob
bad = n = 0
for f in sorted(glob.glob("/verif/lean/Verif/**/*.lean", recursive=True)):
    t = open(f).read()
    for m in re.finditer(r"/--\s*((?:v[123]|generation)/[\w.]+):(\d+)-(\d+)(.*?)-/\s*\n(?:@\[.*?\]\s*)?(?:def|structure|inductive|abbrev)\s+([\w.']+)", t, re.S):
        path, a, b, _, name = m.groups(); a = int(a); b = int(b); n += 1
        name = name.split(".")[-1]
        L = open("/repo/" + path).read().split("\n")
        first, last = L[a-1], L[b-1]
        ok = name.lower() in first.lower() and last.strip() in ("}", ")")
        if not ok:
            bad += 1; print(f"{f}: {name} {path}:{a}-{b}: {first!r} .. {last!r}")
print(n, "citations,", bad, "to look at")
