#!/usr/bin/env python3
"""Writes lean/Verif/Gen/Files.lean: v3/_buffer.go, v3/_minibuf.go and the generated files committed beside them,
as lists of lines, cut at the directives."""
import re
D = re.compile(r"^//generator:complex ([A-z]+) ([A-z]+) ([A-z]+) ([0-9]+) ([A-z]+)$")
def q(l): return 'str% "' + l.replace("\\", "\\\\").replace('"', '\\"').replace("\t", "\\t") + '"'
def lst(ls): return "[\n" + ",\n".join("  " + q(l) for l in ls) + "]"
out = ['import Verif.Gen.Text', '', '/-!', '# The sources and the generated files of v3', '',
 'Written by tools/gen_embed.py.  `Seg.same` is lines that are in both files, `Seg.expanded` a directive of the source and the lines',
 'the generated file has in its place.', '-/', '', 'namespace Crunch.Gen', '',
 '/-- A part of a source file and of the generated file. -/', 'inductive Seg where', '  | same (ls : List Str)',
 '  | expanded (directive : Str) (code : List Str)', '',
 '/-- The lines of the source. -/', 'def Seg.source : Seg → List Str', '  | .same ls => ls', '  | .expanded d _ => [d]', '',
 '/-- The lines of the generated file. -/', 'def Seg.generated : Seg → List Str', '  | .same ls => ls', '  | .expanded _ c => c', '']
for stem, name in (("buffer", "buffer"), ("minibuf", "mini")):
    src = open(f"/repo/v3/_{stem}.go").read().split("\n")
    gen = open(f"/repo/v3/{stem}.generated.go").read().split("\n")
    segs = []; i = j = 0; same = []; s0 = None
    def flush():
        global same
        if same: segs.append(("same", same[0], same[1])); same = []
    while i < len(src):
        m = D.match(src[i])
        if not m:
            assert src[i] == gen[j], (i, j)
            if not same: same = [(i + 1, j + 1), []]
            same[1].append(src[i]); i += 1; j += 1
        else:
            if same: segs.append(("same", same[0], same[1])); same = []
            # the code ends with the closing brace of the second function
            e = j; n = 0
            while n < 2:
                if gen[e] == "}": n += 1
                e += 1
            segs.append(("exp", (i + 1, j + 1, e), src[i], gen[j:e])); i += 1; j = e
    if same: segs.append(("same", same[0], same[1]))
    assert j == len(gen)
    names = []
    for k, s in enumerate(segs):
        n = f"{name}Seg{k}"; names.append(n)
        if s[0] == "same":
            a, b = s[1]; L = len(s[2])
            out.append(f"/-- v3/_{stem}.go:{a}-{min(a+L-1, len(src)-1)}, v3/{stem}.generated.go:{b}-{min(b+L-1, len(gen)-1)} -/")
            out.append(f"def {n} : Seg := .same {lst(s[2])}")
        else:
            a, b, e = s[1]
            out.append(f"/-- v3/_{stem}.go:{a}, v3/{stem}.generated.go:{b}-{e} -/")
            out.append(f"def {n} : Seg := .expanded ({q(s[2])}) {lst(s[3])}")
        out.append("")
    out.append(f"/-- v3/_{stem}.go and v3/{stem}.generated.go -/")
    out.append(f"def {name}Segs : List Seg := [{', '.join(names)}]")
    out.append("")
out.append("end Crunch.Gen")
open("/verif/lean/Verif/Gen/Files.lean", "w").write("\n".join(out) + "\n")
