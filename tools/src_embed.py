#!/usr/bin/env python3
"""Writes lean/Verif/Src/Text/*.lean: the buffer sources of v1, v2 and v3 as lists of lines, one list for each declaration with
the comment before it, and their resolved syntax.  The syntax is printed by tools/src_print.lean.txt (run from here); that it is
what `Crunch.Src.compile` gives is a theorem beside it."""
import json, os, re, subprocess, sys
ROOT = "/verif/lean"
def q(l): return 'str% "' + l.replace("\\", "\\\\").replace('"', '\\"').replace("\t", "\\t") + '"'
def lst(ls): return "[\n" + ",\n".join("  " + q(l) for l in ls) + "]"
FILES = [("V3Buffer", "v3/buffer.generated.go"), ("V3Mini", "v3/minibuf.generated.go"), ("V2Buffer", "v2/buffer.go"),
         ("V2Mini", "v2/minibuf.go"), ("V2Utils", "v2/utils.go"), ("V1Buffer", "v1/buffer.go"), ("V1Mini", "v1/minibuf.go"),
         ("V1Utils", "v1/utils.go")]
def blocks(path):
    ls = open("/repo/" + path).read().split("\n")
    out = []; cur = []; start = 1
    for i, l in enumerate(ls, 1):
        cur.append(l)
        if l == "}":
            out.append((start, i, cur)); cur = []; start = i + 1
    if any(c.strip() for c in cur): out.append((start, len(ls), cur))
    elif cur:
        s, e, b = out[-1]; out[-1] = (s, e, b + cur)
    return out
def chain(links):
    return "".join(f"compileAll_cons link_{t[5:]} <| " for t, _ in links) + "rfl"
def plain():
    """The files that hold no code of the buffers: their lines only."""
    for name, path in [("V3Errors", "v3/errors.go"), ("V2Errors", "v2/errors.go"), ("V1Errors", "v1/errors.go"), ("V1Crunch", "v1/crunch.go"),
                       ("HelloWorld", "examples/helloworld/main.go"), ("SignedIntegers", "examples/signed-integers/main.go"),
                       ("FloatingPoint", "examples/floating-point/main.go")]:
        ls = open("/repo/" + path).read().split("\n")
        o = ["import Verif.Gen.Text", "", "/-!", f"# {path}", "", "Written by tools/src_embed.py.", "-/", "",
             f"namespace Crunch.Src.{name}", "", "open Crunch.Gen (Str)", "",
             f"/-- {path}:1-{len(ls)} -/", f"def text : List Str := {lst(ls)}", "", f"end Crunch.Src.{name}"]
        open(f"{ROOT}/Verif/Src/Text/{name}.lean", "w").write("\n".join(o) + "\n")
TESTS = [("V3BufferTest", "v3/buffer_test.go"), ("V3MiniTest", "v3/minibuf_test.go"), ("V2BufferTest", "v2/buffer_test.go"),
         ("V2MiniTest", "v2/minibuf_test.go"), ("V1BufferTest", "v1/buffer_test.go"), ("V1MiniTest", "v1/minibuf_test.go")]
def tests():
    """The test functions, each as its lines."""
    for name, path in TESTS:
        ls = open("/repo/" + path).read().split("\n")
        o = ["import Verif.Gen.Text", "", "/-!", f"# The test functions of {path}", "", "Written by tools/src_embed.py.", "-/", "",
             f"namespace Crunch.Src.{name}", "", "open Crunch.Gen (Str)", ""]
        names = []
        for i, l in enumerate(ls):
            m = re.match(r"func (Test\w+)\(", l)
            if not m: continue
            j = ls.index("}", i)
            o += [f"/-- {path}:{i + 1}-{j + 1} -/", f"def {m[1]} : List Str := {lst(ls[i:j + 1])}", ""]
            names.append(m[1])
        o += ["/-- All of them. -/", f"def text : List (List Str) := [{', '.join(names)}]", "", f"end Crunch.Src.{name}"]
        open(f"{ROOT}/Verif/Src/Text/{name}.lean", "w").write("\n".join(o) + "\n")
def errtests():
    """The test functions of the error values, each as its lines."""
    o = ["import Verif.Gen.Text", "", "/-!", "# The test functions of the error values", "", "Written by tools/src_embed.py.", "-/", "",
         "namespace Crunch.Src.ErrorsTest", "", "open Crunch.Gen (Str)", ""]
    for v in ["v3", "v2", "v1"]:
        path = v + "/errors_test.go"
        ls = open("/repo/" + path).read().split("\n")
        fs = [i for i, l in enumerate(ls) if l.startswith("func ")]
        if len(fs) != 1: sys.exit("one test was expected")
        i = fs[0]; j = ls.index("}", i)
        o += [f"/-- {path}:{i + 1}-{j + 1} -/", f"def {v} : List Str := {lst(ls[i:j + 1])}", ""]
    o += ["end Crunch.Src.ErrorsTest"]
    open(f"{ROOT}/Verif/Src/Text/ErrorsTest.lean", "w").write("\n".join(o) + "\n")
def benches():
    """The benchmark functions, each as its lines."""
    o = ["import Verif.Gen.Text", "", "/-!", "# The benchmark functions of the test files", "", "Written by tools/src_embed.py.", "-/", ""]
    for name, path in TESTS:
        name = name[:-4] + "Bench"
        ls = open("/repo/" + path).read().split("\n")
        o += [f"namespace Crunch.Src.{name}", "", "open Crunch.Gen (Str)", ""]
        names = []
        for i, l in enumerate(ls):
            m = re.match(r"func (Benchmark\w+)\(", l)
            if not m or "StdByteBuffer" in m[1]: continue
            j = ls.index("}", i)
            o += [f"/-- {path}:{i + 1}-{j + 1} -/", f"def {m[1]} : List Str := {lst(ls[i:j + 1])}", ""]
            names.append(m[1])
        o += ["/-- All of them. -/", f"def text : List (List Str) := [{', '.join(names)}]", "", f"end Crunch.Src.{name}", ""]
    open(f"{ROOT}/Verif/Src/Text/Benches.lean", "w").write("\n".join(o[:-1]) + "\n")
def main():
    for name, path in FILES:
        bs = blocks(path)
        r = subprocess.run(["lake", "env", "lean", "--run", "/verif/tools/src_print.lean.txt", "/repo/" + path], cwd=ROOT,
                           capture_output=True, text=True)
        if r.returncode: sys.exit(r.stdout + r.stderr)
        asts = dict(l.split("\t", 1) for l in r.stdout.strip().split("\n"))
        o = ["import Verif.Src.Sem", "", "/-!", f"# {path}", "", "Written by tools/src_embed.py.", "-/", "",
             f"namespace Crunch.Src.{name}", "", "open Crunch.Gen (Str)", ""]
        texts = []; funs = []; links = []
        for k, (a, b, t) in enumerate(bs):
            m = [x for x in (re.match(r"func (?:\(b \*\w+\) )?(\w+)\(", l) for l in t) if x]
            if len(m) > 1: sys.exit("two functions in a block")
            if m:
                f = m[0].group(1); tn = "text_" + f
            else: f = None; tn = f"text_{k}"
            texts.append(tn)
            cite = f"{path}:{a}-{b}"
            o += [f"/-- {cite} -/", f"def {tn} : List Str := {lst(t)}", ""]
            if f and f in asts:
                o += [f"/-- {cite} -/", f"def fun_{f} : Fun := {asts[f]}", ""]
                funs.append(f)
                links.append((tn, f"[fun_{f}]"))
            elif f is None: links.append((tn, "[]"))
        o += ["/-- The text, in parts. -/", f"def text : List (List Str) := [{', '.join(texts)}]", "",
              "/-- The functions. -/",
              f"def funs : List Fun := [{', '.join('fun_' + f for f in funs)}]", "",
              f"end Crunch.Src.{name}"]
        open(f"{ROOT}/Verif/Src/Text/{name}.lean", "w").write("\n".join(o) + "\n")
        os.makedirs(f"{ROOT}/Verif/Src/Link", exist_ok=True)
        parts = [links[i:i + 36] for i in range(0, len(links), 36)]
        for j, part in enumerate(parts, 1):
            o = [f"import Verif.Src.Text.{name}", "", f"/-! {path}: the syntax of its functions is that of its text.  Written by tools/src_embed.py. -/",
                 "", f"namespace Crunch.Src.{name}", ""]
            o += [f"theorem link_{t[5:]} : compile {t} = some {v} := by decide +kernel" for t, v in part]
            o += ["", f"end Crunch.Src.{name}"]
            open(f"{ROOT}/Verif/Src/Link/{name}{j}.lean", "w").write("\n".join(o) + "\n")
        if len(links) != len(texts): sys.exit("a function does not resolve")
        o = [f"import Verif.Src.Link.{name}{j}" for j in range(1, len(parts) + 1)] + ["", f"/-! {path}: the functions of the file.  Written by tools/src_embed.py. -/",
             "", f"namespace Crunch.Src.{name}", ""]
        o += ["set_option maxRecDepth 4096 in", "theorem link : compileAll text = some funs := by",
              "  exact " + chain(links)]
        o += ["", f"end Crunch.Src.{name}"]
        open(f"{ROOT}/Verif/Src/Link/{name}.lean", "w").write("\n".join(o) + "\n")
def indent(l): return len(l) - len(l.lstrip("\t"))
def block(L, a, b, d, clauses=False):
    """The statements (first and last line) of the lines a..b that are indented by d, or the clauses of a switch."""
    no = ("}", ")", "//", "/*") + (() if clauses else ("case ", "default:"))
    st = [i for i in range(a, b + 1) if L[i].strip() and indent(L[i]) == d and not L[i].strip().startswith(no)]
    r = []
    for i, j in zip(st, st[1:] + [b + 1]):
        e = j - 1
        while not L[e].strip() or L[e].strip().startswith(("//", "/*")): e -= 1
        r.append((i, e))
    return r
def where(L, first, path):
    """The lines of the part of a function with this path (see gen_print.lean.txt)."""
    a = first; b = next(i for i in range(a, len(L)) if L[i] == "}")
    cur = (a, b); body = None
    for kind, num in re.findall(r"([a-z])(\d*)", path):
        a, b = cur; d = indent(L[a])
        close = next((i for i in range(a + 1, b + 1) if indent(L[i]) == d and L[i].strip().startswith("}")), b + 1)
        if kind == "f" and "func(" not in L[a]:
            a = next(i for i in range(a, b + 1) if "func(" in L[i]); d = indent(L[a])
            close = next(i for i in range(a + 1, b + 1) if indent(L[i]) == d and L[i].strip().startswith("}"))
        if kind in "cd": body = block(L, a + 1, b, d + 1)
        elif kind == "s":
            body = block(L, a + 1, close - 1, d, True)
        elif kind == "b":
            body = [(close, b)] if "else if" in L[close] else block(L, close + 1, b - 1, d + 1)
        else: body = block(L, a + 1, close - 1, d + 1)
        cur = body[int(num)] if num else (body[0][0], body[-1][1])
    return cur[0] + 1, cur[1] + 1
def generator():
    """The files of the generator: their lines, and their syntax."""
    for name, path in [("Complex", "generation/complex.go"), ("Main", "generation/main.go")]:
        ls = open("/repo/" + path).read().split("\n")
        o = ["import Verif.Gen.Text", "", "/-!", f"# {path}", "", "Written by tools/src_embed.py.", "-/", "",
             f"namespace Crunch.Gen.Go.{name}", ""]
        parts = []
        for a in range(0, len(ls), 80):
            b = min(a + 80, len(ls)); parts.append(f"text{len(parts)}")
            o += [f"/-- {path}:{a+1}-{b} -/", f"def {parts[-1]} : List Str := {lst(ls[a:b])}", ""]
        o += [f"/-- {path}:1-{len(ls)} -/", f"def text : List Str := {' ++ '.join(parts)}", "", f"end Crunch.Gen.Go.{name}"]
        open(f"{ROOT}/Verif/Gen/Go/{name}Text.lean", "w").write("\n".join(o) + "\n")
        r = subprocess.run(["lake", "env", "lean", "--run", "/verif/tools/gen_print.lean.txt", "/repo/" + path], cwd=ROOT,
                           capture_output=True, text=True)
        if r.returncode: sys.exit(r.stdout + r.stderr)
        o = ["import Verif.Gen.Go.Syntax", f"import Verif.Gen.Go.{name}Text", "", "/-!", f"# {path}: syntax", "",
             "Written by tools/src_embed.py; `link` says that it is the syntax of the text.", "-/", "",
             f"namespace Crunch.Gen.Go.{name}", ""]
        tops = []
        for l in r.stdout.strip().split("\n"):
            n, t = l.split("\t", 1)
            if n.startswith("top"): tops.append(t)
            else:
                f = {"g": "GenerateComplex", "m": "main", "i": "init"}[n[0]]
                a, b = where(ls, next(i for i, l in enumerate(ls) if l.startswith(f"func {f}(")), n)
                o += [f"/-- {path}:{a}-{b} -/" if a < b else f"/-- {path}:{a} -/", f"def {n} : T := {t}", ""]
        o += ["/-- The declarations of the file. -/", "def tops : List Top := [" + ", ".join(tops) + "]", "",
              "theorem link : parse text = some tops := by decide +kernel", "", f"end Crunch.Gen.Go.{name}"]
        open(f"{ROOT}/Verif/Gen/Go/{name}Syntax.lean", "w").write("\n".join(o) + "\n")
plain()
tests()
benches()
errtests()
generator()
if sys.argv[1:] != ["plain"]: main()
