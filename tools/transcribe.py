#!/usr/bin/env python3
"""Transcribe the typed accessors of v3/buffer.generated.go and
v3/minibuf.generated.go, statement by statement, into Lean.

Reads the Go text only; every line of every matched function must be of a known
form, otherwise the script stops.  Usage: transcribe.py [/repo] [/verif/lean/Verif]
"""
import re, sys
repo = sys.argv[1] if len(sys.argv) > 1 else "/repo"
out = sys.argv[2] if len(sys.argv) > 2 else "/verif/lean/Verif"
TY = {"uint16": "UInt16", "uint32": "UInt32", "uint64": "UInt64", "int16": "Int16",
      "int32": "Int32", "int64": "Int64", "float32": "F32", "float64": "F64"}
ZERO = {"F32": "⟨0⟩", "F64": "⟨0⟩"}

def index(e):
    """off+int64(1+(i*2)) | off+int64(i*2) | off+(1+(i*2)) | off+(i*2) -> Lean"""
    m = re.fullmatch(r"off\+(?:int64)?\((.*)\)", e)
    assert m, e
    e = m.group(1)
    m = re.fullmatch(r"i\*(\d+)", e)
    if m: return f"off + i * {m.group(1)}"
    m = re.fullmatch(r"(\d+)\+\(i\*(\d+)\)", e)
    assert m, e
    return f"off + ({m.group(1)} + i * {m.group(2)})"

def wbyte(e, ty):
    """right-hand side of a store"""
    m = re.fullmatch(r"byte\((.*)\)", e); assert m, e
    e = m.group(1)
    sh = ""
    m = re.fullmatch(r"(.*) >> (\d+)", e)
    if m: e, sh = m.group(1), m.group(2)
    if ty == "F32": assert e == "*(*uint32)(unsafe.Pointer(&data[i]))", e; d = "d.bits"
    elif ty == "F64": assert e == "*(*uint64)(unsafe.Pointer(&data[i]))", e; d = "d.bits"
    else: assert e == "data[i]", e; d = "d"
    return f"Elem.byte ({d} >>> {sh})" if sh else f"Elem.byte {d}"

def rexpr(e, cty):
    """sum of shifted loads; returns (list of loads, expression)"""
    loads, terms = [], []
    for k, t in enumerate(e.split(" | ")):
        m = re.fullmatch(cty + r"\(b\.buf\[(.*)\]\)(?:<<(\d+))?", t); assert m, t
        loads.append(index(m.group(1)))
        terms.append(f"conv {TY[cty]} x{k}" + (f" <<< {m.group(2)}" if m.group(2) else ""))
    return loads, " ||| ".join(terms)

def run(path, recv, mini):
    lines = open(f"{repo}/{path}").read().split("\n")
    res = []
    i = 0
    while i < len(lines):
        m = re.match(rf"func \(b \*{recv}\) ((Read|Write)([UIF]\d\d)(LE|BE)(Next)?)\((.*?)\)(.*) \{{$", lines[i])
        if not m: i += 1; continue
        start = i
        while lines[i] != "}": i += 1
        body = [l.strip() for l in lines[start + 1:i] if l.strip()]
        res.append(fn(m, body, f"{path}:{start+1}-{i+1}", mini))
        i += 1
    return res

def fn(m, body, cite, mini):
    name, rw, _, _, nxt, args, ret = m.groups()
    it = iter(body)
    L = [f"/-- {cite} -/"]
    def ex(s):
        g = next(it); assert g == s, (cite, g, s)
    def rx(p):
        g = next(it); r = re.fullmatch(p, g); assert r, (cite, g, p); return r
    def end():
        assert next(it, None) is None, cite
    def guard(lhs, err1, err2, lean):
        r = rx(r"if \(" + lhs + r"\*(\d+)\) > b\.cap \{"); w = r.group(1)
        ex(f"panic({err1})"); ex("}"); ex("if off < 0 {"); ex(f"panic({err2})"); ex("}")
        L.append("  let b ← getB")
        L.append(f"  panicIf (off + {lean} * {w} > b.cap) (.err {err1})")
        L.append(f"  panicIf (off < 0) (.err {err2})")
        return w
    if rw == "Write":
        ga = re.fullmatch(r"(off int64, )?data \[\](\w+)", args); ty = TY[ga.group(2)]
        if nxt:
            assert ga.group(1) is None
            L.append(f"def {name} (data : List {ty}) : GoM St Unit := do")
            r = rx(r"b\.(\w+)\(b\.off, data\)"); f = r.group(1)
            r = rx(r"b\.SeekByte\(int64\(len\(data\)\)\*(\d+), true\)")
            L += ["  let b ← getB", f"  {f} b.off data", f"  SeekByte (len data * {r.group(1)}) true"]
            end(); return "\n".join(L)
        L.append(f"def {name} (off : Int64) (data : List {ty}) : GoM St Unit := do")
        if not mini:
            guard(r"off \+ int64\(len\(data\)\)", "BufferOverwriteError", "BufferUnderwriteError", "len data")
        ex("i := 0"); ex("n := len(data)"); ex("{"); ex("write_loop:")
        L.append("  doLoop (fun i _ => do")
        for g in it:
            if g == "i++": break
            r = re.fullmatch(r"b\.buf\[(.*?)\] = (.*)", g); assert r, (cite, g)
            L.append("    let d ← idx data i")
            L.append(f"    bufStore ({index(r.group(1))}) ({wbyte(r.group(2), ty)})")
        ex("if i < n {"); ex("goto write_loop"); ex("}"); ex("}"); end()
        L[-1] += ") (len data) 0 ()"
        return "\n".join(L)
    # Read
    if mini:
        ga = re.fullmatch(r"out \*\[\](\w+), (off, )?n int64", args); ty = TY[ga.group(1)]; gty = ga.group(1)
        assert ret == ""
        M = f"GoM (St × List {ty}) Unit"
    else:
        ga = re.fullmatch(r"(off, )?n int64", args)
        rr = re.fullmatch(r" \(out \[\](\w+)\)", ret); gty = rr.group(1); ty = TY[gty]
        M = f"GoM St (List {ty})"
    if nxt:
        L.append(f"def {name} (n : Int64) : {M} := do")
        if mini:
            f = rx(r"b\.(\w+)\(out, b\.off, n\)").group(1); w = rx(r"b\.SeekByte\(n\*(\d+), true\)").group(1)
            L += ["  let b ← onB getB", f"  {f} b.off n", f"  onB (SeekByte (n * {w}) true)"]
        else:
            f = rx(r"out = b\.(\w+)\(b\.off, n\)").group(1); w = rx(r"b\.SeekByte\(n\*(\d+), true\)").group(1)
            ex("return")
            L += ["  let b ← getB", f"  let out ← {f} b.off n", f"  SeekByte (n * {w}) true", "  return out"]
        end(); return "\n".join(L)
    L.append(f"def {name} (off n : Int64) : {M} := do")
    size = {"16": 2, "32": 4, "64": 8}[gty[-2:]]
    if not mini:
        guard(r"off \+ n", "BufferOverreadError", "BufferUnderreadError", "n")
        ex(f"out = make([]{gty}, n)")
        L.append(f"  let out ← makeTyped {size} ({ZERO.get(ty, '0')} : {ty}) n")
    ex("i := int64(0)")
    fl = gty.startswith("float")
    cty = gty.replace("float", "uint") if fl else gty
    if fl: ex(f"var u {cty}")
    ex("{"); ex("read_loop:")
    target = r"\(\*out\)\[i\]" if mini else r"out\[i\]"
    if fl:
        r = rx(r"u = \((.*)\)"); loads, e = rexpr(r.group(1), cty)
        rx(target + r" = \*\(\*" + gty + r"\)\(unsafe\.Pointer\(&u\)\)")
        val = f"⟨{e}⟩"
    else:
        r = rx(target + r" = (.*)"); loads, e = rexpr(r.group(1), cty); val = f"({e})"
    ex("i++"); ex("if i < n {"); ex("goto read_loop"); ex("}"); ex("}")
    if not mini: ex("return")
    end()
    if mini:
        L.append("  doLoop (fun i _ => do")
        L += [f"    let x{k} ← onB (bufLoad ({l}))" for k, l in enumerate(loads)]
        L += ["    let out ← getOut", f"    let out ← setIdx out i {val}", "    putOut out) n 0 ()"]
    else:
        L.append("  doLoop (fun i out => do")
        L += [f"    let x{k} ← bufLoad ({l})" for k, l in enumerate(loads)]
        L.append(f"    setIdx out i {val}) n 0 out")
    return "\n".join(L)

def emit(path, mod, ns, recv, mini, imp, title):
    fs = run(path, recv, mini)
    assert len(fs) == 64, len(fs)
    with open(f"{out}/{mod}", "w") as f:
        f.write(f"import {imp}\n\n/-!\n{title}\n\nWritten by tools/transcribe.py from the Go text, statement by statement.  `int` and\n"
                "`int64` are the same type here (64-bit platform).\n-/\n\n"
                f"namespace {ns}\n\n" + "\n\n".join(fs) + f"\n\nend {ns}\n")

emit("v3/buffer.generated.go", "V3/BufferTyped.lean", "Crunch.V3.Buffer", "Buffer", False,
     "Verif.V3.Buffer", "# v3 `Buffer`: the 64 typed accessors")
emit("v3/minibuf.generated.go", "V3/MiniTyped.lean", "Crunch.V3.Mini", "MiniBuffer", True,
     "Verif.V3.Mini", "# v3 `MiniBuffer`: the 64 typed accessors")

# ---- v2: private methods with the lock (Buffer) or without (MiniBuffer), and public wrappers ----

def run2(path, recv, mini):
    lines = open(f"{repo}/{path}").read().split("\n")
    res = []
    i = 0
    while i < len(lines):
        m = re.match(rf"func \(b \*{recv}\) (([Rr]ead|[Ww]rite)(U\d\d)(LE|BE)(Next)?)\((.*?)\)(.*) \{{$", lines[i])
        if not m: i += 1; continue
        start = i
        while lines[i] != "}": i += 1
        body = re.sub(r"\|\n", "| ", "\n".join(l.strip() for l in lines[start + 1:i] if l.strip())).split("\n")
        res.append(fn2(m, body, f"{path}:{start+1}-{i+1}", mini))
        i += 1
    return res

def fn2(m, body, cite, mini):
    name, rw, kind, en, nxt, args, ret = m.groups()
    it = iter(body)
    L = [f"/-- {cite} -/"]
    def ex(s):
        g = next(it); assert g == s, (cite, g, s)
    def rx(p):
        g = next(it); r = re.fullmatch(p, g); assert r, (cite, g, p); return r
    def end():
        assert next(it, None) is None, cite
    P = "" if mini else "Prog."
    def guard(lhs, err1, err2, lean):
        r = rx(r"if \(" + lhs + r"\*(\d+)\) > b\.cap \{"); w = r.group(1)
        ex(f"panic({err1})"); ex("}"); ex("if off < 0x00 {"); ex(f"panic({err2})"); ex("}")
        L.append("  let cap ← Prog.field .cap")
        L.append(f"  Prog.panicIf (off + {lean} * {w} > cap) (.err {err1})")
        L.append(f"  Prog.panicIf (off < 0) (.err {err2})")
    if rw in ("Write", "write"):
        ga = re.fullmatch(r"(off int64, )?data \[\](\w+)", args); ty = TY[ga.group(2)]
        M = "GoM St Unit" if mini else "Prog Unit"
        if nxt:
            assert ga.group(1) is None
            L.append(f"def {name} (data : List {ty}) : {M} := do")
            f = rx(r"b\.(\w+)\(b\.off, data\)").group(1)
            w = rx(r"b\.seek\(int64\(len\(data\)\)\*(\d+), true\)").group(1); end()
            if mini: L += ["  let b ← getB", f"  {f} b.off data"]
            else: L += ["  let off ← Prog.field .off", f"  {f} off data"]
            L.append(f"  seek (len data * {w}) true")
            return "\n".join(L)
        assert ga.group(1)
        if rw == "Write":
            f = rx(r"b\.(\w+)\(off, data\)").group(1); end()
            L.append(f"def {name} (off : Int64) (data : List {ty}) : {M} := {f} off data")
            return "\n".join(L)
        L.append(f"def {name} (off : Int64) (data : List {ty}) : {M} := do")
        if not mini:
            guard(r"off \+ int64\(len\(data\)\)", "BufferOverwriteError", "BufferUnderwriteError", "len data")
            ex("b.Lock()"); L.append("  Prog.Lock")
        ex("var ("); ex("i = 0"); ex("n = len(data)"); ex(")"); ex("{"); ex("write_loop:")
        L.append(f"  {P}doLoop (fun i _ => do")
        for g in it:
            if g == "i++": break
            r = re.fullmatch(r"b\.buf\[(.*?)\] = (.*)", g); assert r, (cite, g)
            L.append(f"    let d ← {P}idx data i")
            L.append(f"    {P}bufStore ({index(r.group(1))}) ({wbyte(r.group(2), ty)})")
        ex("if i < n {"); ex("goto write_loop"); ex("}"); ex("}")
        L[-1] += ") (len data) 0 ()"
        if not mini: ex("b.Unlock()"); L.append("  Prog.Unlock")
        end()
        return "\n".join(L)
    if mini:
        ga = re.fullmatch(r"out \*\[\](\w+), (off, )?n int64", args); gty = ga.group(1); assert ret == ""
        hasoff = ga.group(2)
        ty = TY[gty]; M = f"GoM (St × List {ty}) Unit"
    else:
        ga = re.fullmatch(r"(off, )?n int64", args); hasoff = ga.group(1)
        rr = re.fullmatch(r" (?:\(out \[\](\w+)\)|\[\](\w+))", ret); gty = rr.group(1) or rr.group(2)
        ty = TY[gty]; M = f"Prog (List {ty})"
    if nxt:
        assert not hasoff
        L.append(f"def {name} (n : Int64) : {M} := do")
        if mini:
            f = rx(r"b\.(\w+)\(out, b\.off, n\)").group(1); w = rx(r"b\.seek\(n\*(\d+), true\)").group(1)
            L += ["  let b ← onB getB", f"  {f} b.off n", f"  onB (seek (n * {w}) true)"]
        else:
            f = rx(r"out = b\.(\w+)\(b\.off, n\)").group(1); w = rx(r"b\.seek\(n\*(\d+), true\)").group(1)
            ex("return")
            L += ["  let off ← Prog.field .off", f"  let out ← {f} off n", f"  seek (n * {w}) true", "  return out"]
        end(); return "\n".join(L)
    assert hasoff
    if rw == "Read":
        f = rx(r"b\.(\w+)\(out, off, n\)" if mini else r"return b\.(\w+)\(off, n\)").group(1); end()
        L.append(f"def {name} (off n : Int64) : {M} := {f} off n")
        return "\n".join(L)
    L.append(f"def {name} (off n : Int64) : {M} := do")
    size = {"16": 2, "32": 4, "64": 8}[gty[-2:]]
    if not mini:
        guard(r"off \+ n", "BufferOverreadError", "BufferUnderreadError", "n")
        ex(f"out = make([]{gty}, n)")
        L.append(f"  let out ← Prog.makeTyped {size} (0 : {ty}) n")
        ex("b.Lock()"); ex("defer b.Unlock()")
    ex("i := int64(0)"); ex("{"); ex("read_loop:")
    target = r"\(\*out\)\[i\]" if mini else r"out\[i\]"
    r = rx(target + r" = (.*)"); loads, e = rexpr(r.group(1), gty)
    ex("i++"); ex("if i < n {"); ex("goto read_loop"); ex("}"); ex("}")
    if not mini: ex("return")
    end()
    if mini:
        L.append("  doLoop (fun i _ => do")
        L += [f"    let x{k} ← onB (bufLoad ({l}))" for k, l in enumerate(loads)]
        L += ["    let out ← getOut", f"    let out ← setIdx out i ({e})", "    putOut out) n 0 ()"]
    else:
        L.append("  Prog.locked (Prog.doLoop (fun i out => do")
        L += [f"    let x{k} ← Prog.bufLoad ({l})" for k, l in enumerate(loads)]
        L.append(f"    Prog.setIdx out i ({e})) n 0 out)")
    return "\n".join(L)

def emit2(path, mod, ns, recv, mini, imp, title, opens):
    fs = run2(path, recv, mini)
    assert len(fs) == 36, len(fs)
    with open(f"{out}/{mod}", "w") as f:
        f.write(f"import {imp}\n\n/-!\n{title}\n\nWritten by tools/transcribe.py from the Go text, statement by statement.  `int` and\n"
                "`int64` are the same type here (64-bit platform).\n-/\n\n"
                f"namespace {ns}\n\n{opens}" + "\n\n".join(fs) + f"\n\nend {ns}\n")

emit2("v2/buffer.go", "V2/BufferTyped.lean", "Crunch.V2.Buffer", "Buffer", False,
      "Verif.V2.Buffer", "# v2 `Buffer`: the typed accessors", "")
emit2("v2/minibuf.go", "V2/MiniTyped.lean", "Crunch.V2.Mini", "MiniBuffer", True,
      "Verif.V2.Mini", "# v2 `MiniBuffer`: the typed accessors", "open V3 (St getB bufLoad bufStore)\nopen V3.Mini (onB getOut putOut)\n\n")
