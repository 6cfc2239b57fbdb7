#!/usr/bin/env python3
"""Writes the proofs that the methods of the Go files, read as text, are the models (lean/Verif/Src/<Name>*.lean)."""
import os
HERE = os.path.dirname(os.path.abspath(__file__))
OUT = os.path.join(HERE, "..", "lean", "Verif", "Src")

HEAD = '''import Verif.Src.%(tactic)s
import Verif.Src.Text.%(name)s
%(imports)s
/-! %(doc)s  Written by tools/src_proofs.py. -/

set_option linter.unusedVariables false
set_option linter.unusedSimpArgs false

namespace Crunch.Src.%(name)s
open V3.Mini (onB callOut)

'''

VAR = {"i64": "Int64", "u8": "UInt8", "u64": "UInt64", "bool": "Bool", "slice": "Slice", "li64": "List Int64",
       "num": "Nat", "src": "Crunch.Src", "slices": "List Slice",
       "li16": "List Int16", "li32": "List Int32", "lu16": "List UInt16", "lu32": "List UInt32",
       "lu64": "List UInt64", "lf32": "List F32", "lf64": "List F64"}
CUR = {}

def val(v, c):
    return f".bytes (.mem {v})" if c == "slice" else f".bytes {v}" if c == "src" else f".{c} {v}"

class F:
    """A function: name, arguments (variable, kind), result (`*kind`: through an out parameter), depth of calls, functions it calls
    (name:depth:arity, `!` if that needs fuel), and how to finish the proof."""
    def __init__(s, name, args, ret, depth=1, uses=(), unf=(), loop=None, tail=None, th=None, lit=None, hyp="", model=None, raw=None, extra=()):
        s.extra = extra
        s.lit, s.hyp, s.model, s.raw = lit, hyp, model or name, raw
        s.name, s.args, s.ret, s.depth, s.uses, s.unf, s.loop, s.tail, s.th = name, args, ret, depth, uses, unf, loop, tail, th or name
    def stmt(s):
        loopy = s.loop is not None or any(u.endswith("!") for u in s.uses)
        bs = "".join(f"({v} : {VAR[c]}) " for v, c in s.args)
        h = "(hf : 2 ^ 64 < fuel) " if loopy else ""
        vs = [val(v, c) for v, c in s.args]
        ms = " ".join(f"(Int64.ofNat {v})" if c == "num" else v for v, c in s.args)
        m = f"{CUR['model']}.{s.model} {ms}".strip()
        r = s.ret.lstrip("*")
        if s.ret[0] == "*":
            inj = "(fun x => .bytes (.mem x))" if r == "slice" else f".{r}"
            o = lambda x: f"({val(x, r)})"
            t = (f"theorem {s.th} (fuel d : Nat) {h}{bs}{s.hyp}(x : {VAR[r]}) (k : V → GoM (V3.St × V) β) :\n"
                 f"    atOut {o('x')} (P.call fuel (d + {s.depth}) (str% \"{s.name}\") [{', '.join(['.ptr'] + vs)}] >>= k) =\n"
                 f"    through {inj} ({m}) x fun _ x => atOut {o('x')} (k .unit) := by\n")
        elif CUR.get("prog"):
            res = "pure .unit" if r == "unit" else f"pure ({val('x', r)})"
            t = (f"theorem {s.th} (fuel d : Nat) {h}{bs}{s.hyp}:\n"
                 f"    P.call fuel (d + {s.depth}) (str% \"{s.name}\") [{', '.join(vs)}] =\n"
                 f"    ({m} >>= fun x => {res} : Prog V) := by\n")
        else:
            res = "pure .unit" if r == "unit" else f"pure ({val('x', r)})"
            t = (f"theorem {s.th} (fuel d : Nat) {h}{bs}{s.hyp}:\n"
                 f"    P.call fuel (d + {s.depth}) (str% \"{s.name}\") [{', '.join(vs)}] =\n"
                 f"    (onB ({m}) >>= fun x => {res} : GoM (V3.St × V) V) := by\n")
        return t
    def text(s):
        if s.raw:
            return s.raw
        out = s.ret[0] == "*"
        t = s.stmt() + f"  rw [call_of (f := fun_{s.name}) (by rfl) (by rfl)]\n  unfold fun_{s.name}\n"
        us, os_ = [], []
        for u in s.uses:
            hf = " hf" if u.endswith("!") else ""
            n, dd, ar, *more = u.rstrip("!").split(":")
            more = "".join(" " + m for m in more)
            d = s.depth - 1 - int(dd)
            dt = "d" if d == 0 else f"(d + {d})"
            if n.startswith("&"):
                n, inj = n[1:].split("@")
                us.append(f"↓use (withOut_of V.{inj} _ fun k => {n} fuel {dt}{hf}{' _' * int(ar)} _ k)")
            elif n.startswith("*"):
                os_.append(f"{n[1:]} fuel {dt}{hf}{more}")
            elif n.startswith("="):
                us.append(f"↓use_pure ({n[1:]} fuel {dt}{hf}{' _' * int(ar)})")
            else:
                us.append(f"↓use ({n} fuel {dt}{hf}{' _' * int(ar)}{more})")
        if s.lit:
            us.append(s.lit)
        prog = bool(CUR.get("prog"))
        src_, gom, down = ("srcp", "prog", "downp") if prog else ("src", "gom", "down")
        doEq, forEq = ("prog_doLoop", "prog_forLoop") if prog else ("doLoop_eq", "forLoop_eq")
        src = src_ + (f" [{', '.join(us)}]" if us else "")
        unf = ", ".join([f"{CUR['model']}.{s.model}"] + [f"{CUR['model']}.{u}" for u in s.unf] + list(s.extra))
        outs = "" if not out else "  try outs" + (f" [{', '.join(os_)}]" if os_ else "") + "\n"
        t += f"  {src}\n  {gom} [{unf}]\n{outs}"
        if s.loop:
            env, u, i0, a0, u0, *kind = s.loop
            if kind == ["for"] and out:
                t += (f"  {down}\n"
                      f"  refine loopFor_out (U := {u}) _ _ ({forEq} _ _) (fun a u i => {env}) ?_ ?_ ?_\n"
                      f"    (fun _ _ _ _ => rfl) _ {i0} {a0} {u0} (Nat.lt_of_le_of_lt (left_le _ _) hf)\n"
                      f"  · intro i a u k; {src_}\n"
                      f"  · intro i a u k; {src_}\n"
                      "  · intro i a u x k k' h\n"
                      f"    {src}\n    try {gom}\n  {outs}    {down}\n    all_goals first | exact h _ _ u | exact h _ _ _\n")
            elif kind == ["for"]:
                t += (f"  {down}\n"
                      f"  refine loopFor_bind (U := {u}) ({forEq} _ _) (fun a u i => {env}) ?_ ?_ ?_\n"
                      f"    (fun _ _ _ => rfl) _ {i0} {a0} {u0} (Nat.lt_of_le_of_lt (left_le _ _) hf)\n"
                      f"  · intro i a u k; {src_}\n"
                      f"  · intro i a u k; {src_}\n"
                      "  · intro i a u k k' h\n"
                      f"    {src}\n    try {gom}\n    {down}\n    all_goals first | exact h _ u | exact h _ _\n")
            elif kind == ["range"]:
                t += (f"  {down}\n"
                      f"  refine loopRange_bind (U := {u}) ({forEq} _ _) (fun a u => {env}) ?_\n"
                      f"    (fun _ _ => rfl) _ {i0} {a0} {u0} (Nat.lt_of_le_of_lt (left_le _ _) hf)\n"
                      "  intro i a u k k' h\n"
                      f"  {src}\n  try {gom}\n  {down}\n  all_goals first | exact h _ u | exact h _ _\n")
            elif out:
                t += (f"  {down}\n"
                      f"  refine loopGoto_out (U := {u}) _ _ ({doEq} _ _) (fun a u i => {env}) ?_\n"
                      f"    (fun _ _ _ _ => rfl) _ {i0} {a0} {u0} (Nat.le_trans (rounds_le _ _) hf)\n"
                      "  intro i a u x k k' h\n"
                      f"  {src}\n  try {gom}\n{outs}  {down}\n  all_goals first | exact h _ _ u | exact h _ _ _\n")
            else:
                t += (f"  {down}\n"
                      f"  refine loopGoto_bind (U := {u}) ({doEq} _ _) (fun a u i => {env}) ?_\n"
                      f"    (fun _ _ _ => rfl) _ {i0} {a0} {u0} (Nat.le_trans (rounds_le _ _) hf)\n"
                      "  intro i a u k k' h\n"
                      f"  {src}\n  try {gom}\n  {down}\n  all_goals first | exact h _ u | exact h _ _\n")
        if s.tail:
            t += s.tail
        return t

def write(suffix, imports, doc, fs, pre=""):
    t = HEAD % dict(name=CUR["name"], tactic="TacticProg" if CUR.get("prog") else "Tactic", imports="".join(f"import {i}\n" for i in imports), doc=doc) + pre
    t += "\n".join(f.text() for f in fs)
    t += f"\nend Crunch.Src.{CUR['name']}\n"
    open(os.path.join(OUT, CUR["name"] + suffix + ".lean"), "w").write(t)

off, n = ("off", "i64"), ("n", "i64")
RUN = "  funext s\n  simp only [run_getB, run_modB, run_ite, run_onMem]\n"
AFTER = """  funext s
  rcases l with _ | ⟨o, l⟩
  · rfl
  · rw [if_neg (len_cons_ne hl)]
    rfl
"""
SB1 = "SeekByte_num:1:2"; SBI1 = "SeekBit_num:1:2"
NEW = """theorem %(fn)s (fuel d : Nat) (hf : 2 ^ 64 < fuel) (l : List Slice) (hl : l.length < 2 ^ 63) :
    P.call fuel (d + 2) (str%% "%(fn)s") [%(ptr)s.slices l] =
    (onB (%(model)s.%(fn)s l) >>= fun x => pure .unit : GoM (V3.St × V) V) := by
  rw [call_of (f := fun_%(fn)s) (by rfl) (by rfl)]
  unfold fun_%(fn)s
  src [↓use (Refresh fuel d), ↓gom_lit]
  gom [modB_modB, List.reverse_nil]
  rcases l with _ | ⟨s, _ | ⟨t, l⟩⟩
  · simp only [%(model)s.%(fn)s]; gom; rfl
  · simp only [%(model)s.%(fn)s]; gom; rfl
  · rw [if_neg (len_cons_ne hl), if_neg (len_cons_cons_ne hl)]
    simp only [%(model)s.%(fn)s]
    gom
    down
    refine loopGoto_bind (U := Unit) (doLoop_eq _ _) (fun a u i => [%(ptr)s.slices (s :: t :: l), .i64 i, .i64 (Crunch.len (s :: t :: l))]) ?_
      (fun _ _ _ => rfl) _ 0 () () (Nat.le_trans (rounds_le _ _) hf)
    intro i a u k k' h
    src
    gom
    down
    exact h _ u
"""
V3BUFFER = [
 F("Refresh", [], "unit", tail=RUN),
 F("SeekBit", [off, ("r", "bool")], "unit", tail=RUN),
 F("SeekBit", [("off", "num"), ("r", "bool")], "unit", th="SeekBit_num", tail=RUN),
 F("SeekByte", [off, ("r", "bool")], "unit", tail=RUN),
 F("SeekByte", [("off", "num"), ("r", "bool")], "unit", th="SeekByte_num", tail=RUN),
 F("ReadBit", [off], "u8"),
 F("ReadBitNext", [], "u8", 2, ["ReadBit:1:1", SBI1]),
 F("ReadBits", [off, n], "u64", 2, ["ReadBit:1:1"], loop=("[.i64 off, .i64 n, .u64 a, .i64 i]", "Unit", "0", "0", "()")),
 F("ReadBitsNext", [n], "u64", 3, ["ReadBits:2:2!", "SeekBit:1:2"]),
 F("SetBit", [off], "unit"),
 F("SetBitNext", [], "unit", 2, ["SetBit:1:1", SBI1]),
 F("ClearBit", [off], "unit"),
 F("ClearBitNext", [], "unit", 2, ["ClearBit:1:1", SBI1]),
 F("FlipBit", [off], "unit"),
 F("FlipBitNext", [], "unit", 2, ["FlipBit:1:1", SBI1]),
 F("SetBits", [off, ("data", "u64"), n], "unit", 2, ["ClearBit:1:1", "SetBit:1:1"], loop=("[.i64 off, .u64 data, .i64 n, .i64 i]", "Unit", "0", "()", "()")),
 F("SetBitsNext", [("data", "u64"), n], "unit", 3, ["SetBits:2:3!", "SeekBit:1:2"]),
 F("ClearAllBits", [], "unit", loop=("[.i64 i, .i64 _]", "Unit", "0", "()", "()")),
 F("SetAllBits", [], "unit", loop=("[.i64 i, .i64 _]", "Unit", "0", "()", "()")),
 F("FlipAllBits", [], "unit", loop=("[.i64 i, .i64 _]", "Unit", "0", "()", "()")),
 F("AfterBit", [("l", "li64")], "i64", hyp="(hl : l.length < 2 ^ 63) ", tail=AFTER),
 F("AlignBit", [], "unit", tail=RUN),
 F("AfterByte", [("l", "li64")], "i64", hyp="(hl : l.length < 2 ^ 63) ", tail=AFTER),
 F("AlignByte", [], "unit", tail=RUN),
 F("WriteBytes", [off, ("data", "slice")], "unit", tail=RUN),
 F("WriteBytesNext", [("data", "slice")], "unit", 2, ["WriteBytes:1:2", "SeekByte:1:2"]),
 F("WriteByte", [off, ("data", "u8")], "unit", 2, ["WriteBytes:1:2"], lit="↓gom_lit", tail="  rfl\n"),
 F("WriteByteNext", [("data", "u8")], "unit", 2, ["WriteBytes:1:2", SB1], lit="↓gom_lit", tail="  rfl\n"),
 F("ReadBytes", [off, n], "slice", tail=RUN),
 F("ReadBytes", [off, ("n", "num")], "slice", th="ReadBytes_num", tail=RUN),
 F("ReadBytesNext", [n], "slice", 2, ["ReadBytes:1:2", "SeekByte:1:2"]),
 F("ReadByte", [off], "u8", 2, ["ReadBytes_num:1:2"]),
 F("ReadByteNext", [], "u8", 2, ["ReadBytes_num:1:2", SB1]),
 F("TruncateLeft", [n], "unit", 2, ["Refresh:1:0"], tail=RUN),
 F("TruncateRight", [n], "unit", 2, ["Refresh:1:0"], tail=RUN),
 F("Grow", [n], "unit", 2, ["Refresh:1:0"], lit="↓gom_makeCap", tail=RUN),
 F("Reset", [], "unit"),
 F("Bytes", [], "slice"),
 F("ByteCapacity", [], "i64"),
 F("BitCapacity", [], "i64"),
 F("ByteOffset", [], "i64"),
 F("BitOffset", [], "i64"),
]


PRE3 = '''/-- the errors of v3/errors.go -/
def errs : List (Gen.Str × GoError) := [
  (str%% "BufferOverreadError", V3.BufferOverreadError),
  (str%% "BufferUnderreadError", V3.BufferUnderreadError),
  (str%% "BufferOverwriteError", V3.BufferOverwriteError),
  (str%% "BufferUnderwriteError", V3.BufferUnderwriteError),
  (str%% "BufferInvalidByteCountError", V3.BufferInvalidByteCountError),
  (str%% "BytesBufNegativeReadError", V3.BytesBufNegativeReadError)]

/-- the package: %s -/
def P : Pkg := ⟨funs, errs⟩

'''

KINDS = (("U16", 2), ("U32", 4), ("U64", 8), ("I16", 2), ("I32", 4), ("I64", 8), ("F32", 4), ("F64", 8))

def v3buffer():
    CUR.update(name="V3Buffer", model="V3.Buffer")
    raw = NEW % dict(fn="NewBuffer", model="V3.Buffer", ptr="")
    write("", ["Verif.V3.Buffer"], "The methods of v3/buffer.generated.go other than the typed ones, from their text.",
          V3BUFFER + [F("NewBuffer", [], "unit", raw=raw)], PRE3 % "v3/buffer.generated.go")
    fs = []
    for k, sz in KINDS:
        l = "l" + k.lower()
        sc, u, u0 = (f", .u{8 * sz} u", f"UInt{8 * sz}", "0") if k[0] == "F" else ("", "Unit", "()")
        for e in ("LE", "BE"):
            data = ("data", l)
            fs += [
             F(f"Write{k}{e}", [off, data], "unit", loop=(f"[.i64 off, .{l} data, .i64 i, .i64 (Crunch.len data)]", "Unit", "0", "()", "()")),
             F(f"Write{k}{e}Next", [data], "unit", 2, [f"Write{k}{e}:1:2!", "SeekByte:1:2"]),
             F(f"Read{k}{e}", [off, n], l, loop=(f"[.i64 off, .i64 n, .{l} a, .i64 i{sc}]", u, "0", "_", u0)),
             F(f"Read{k}{e}Next", [n], l, 2, [f"Read{k}{e}:1:2!", "SeekByte:1:2"])]
    for j, a in ((1, fs[:24]), (2, fs[24:48]), (3, fs[48:])):
        write(f"Typed{j}", ["Verif.V3.BufferTyped", "Verif.Src.V3Buffer"], "The typed methods of v3/buffer.generated.go, from their text.", a)

ROUT = "  funext s\n  simp only [ob_getB]\n"
AFTERO = """  funext s
  rcases l with _ | ⟨o, l⟩
  · rfl
  · rw [if_neg (len_cons_ne hl)]
    rfl
"""
V3MINI = [
 F("Refresh", [], "unit", tail=RUN),
 F("SeekBit", [off, ("r", "bool")], "unit", tail=RUN),
 F("SeekBit", [("off", "num"), ("r", "bool")], "unit", th="SeekBit_num", tail=RUN),
 F("SeekByte", [off, ("r", "bool")], "unit", tail=RUN),
 F("SeekByte", [("off", "num"), ("r", "bool")], "unit", th="SeekByte_num", tail=RUN),
 F("ReadBit", [off], "*u8"),
 F("ReadBitNext", [], "*u8", 2, ["*ReadBit:1:1", SBI1]),
 F("ReadBits", [off, n], "*u64", 2, ["&ReadBit@u8:1:1"], loop=("[.ptr, .i64 off, .i64 n, .u8 a, .i64 i]", "Unit", "0", "0", "()")),
 F("ReadBitsNext", [n], "*u64", 3, ["*ReadBits:2:2!", "SeekBit:1:2"]),
 F("SetBit", [off], "unit"),
 F("SetBitNext", [], "unit", 2, ["SetBit:1:1", SBI1]),
 F("ClearBit", [off], "unit"),
 F("ClearBitNext", [], "unit", 2, ["ClearBit:1:1", SBI1]),
 F("FlipBit", [off], "unit"),
 F("FlipBitNext", [], "unit", 2, ["FlipBit:1:1", SBI1]),
 F("SetBits", [off, ("data", "u64"), n], "unit", 2, ["ClearBit:1:1", "SetBit:1:1"], loop=("[.i64 off, .u64 data, .i64 n, .i64 i]", "Unit", "0", "()", "()")),
 F("SetBitsNext", [("data", "u64"), n], "unit", 3, ["SetBits:2:3!", "SeekBit:1:2"]),
 F("ClearAllBits", [], "unit", loop=("[.i64 i, .i64 _]", "Unit", "0", "()", "()")),
 F("SetAllBits", [], "unit", loop=("[.i64 i, .i64 _]", "Unit", "0", "()", "()")),
 F("FlipAllBits", [], "unit", loop=("[.i64 i, .i64 _]", "Unit", "0", "()", "()")),
 F("AfterBit", [("l", "li64")], "*i64", hyp="(hl : l.length < 2 ^ 63) ", tail=AFTERO),
 F("AlignBit", [], "unit", tail=RUN),
 F("AfterByte", [("l", "li64")], "*i64", hyp="(hl : l.length < 2 ^ 63) ", tail=AFTERO),
 F("AlignByte", [], "unit", tail=RUN),
 F("WriteBytes", [off, ("data", "slice")], "unit"),
 F("WriteBytesNext", [("data", "slice")], "unit", 2, ["WriteBytes:1:2", "SeekByte:1:2"]),
 F("ReadBytes", [off, n], "*slice"),
 F("ReadBytesNext", [n], "*slice", 2, ["*ReadBytes:1:2", "SeekByte:1:2"]),
 F("TruncateLeft", [n], "unit", 2, ["Refresh:1:0"], tail=RUN),
 F("TruncateRight", [n], "unit", 2, ["Refresh:1:0"], tail=RUN),
 F("Grow", [n], "unit", 2, ["Refresh:1:0"], lit="↓gom_makeCap", tail=RUN),
 F("Reset", [], "unit"),
 F("Bytes", [], "*slice"),
 F("ByteCapacity", [], "*i64"),
 F("BitCapacity", [], "*i64"),
 F("ByteOffset", [], "*i64"),
 F("BitOffset", [], "*i64"),
]

def v3mini():
    CUR.update(name="V3Mini", model="V3.Mini")
    raw = NEW % dict(fn="NewMiniBuffer", model="V3.Mini", ptr=".ptr, ")
    write("", ["Verif.V3.Mini"], "The methods of v3/minibuf.generated.go other than the typed ones, from their text.",
          V3MINI + [F("NewMiniBuffer", [], "unit", raw=raw)], PRE3 % "v3/minibuf.generated.go")
    fs = []
    for k, sz in KINDS:
        l = "l" + k.lower()
        sc, u, u0 = (f", .u{8 * sz} u", f"UInt{8 * sz}", "0") if k[0] == "F" else ("", "Unit", "()")
        for e in ("LE", "BE"):
            data = ("data", l)
            fs += [
             F(f"Write{k}{e}", [off, data], "unit", loop=(f"[.i64 off, .{l} data, .i64 i, .i64 (Crunch.len data)]", "Unit", "0", "()", "()")),
             F(f"Write{k}{e}Next", [data], "unit", 2, [f"Write{k}{e}:1:2!", "SeekByte:1:2"]),
             F(f"Read{k}{e}", [off, n], "*" + l, loop=(f"[.ptr, .i64 off, .i64 n, .i64 i{sc}]", u, "0", "()", u0)),
             F(f"Read{k}{e}Next", [n], "*" + l, 2, [f"*Read{k}{e}:1:2!", "SeekByte:1:2"])]
    for j, a in ((1, fs[:24]), (2, fs[24:48]), (3, fs[48:])):
        write(f"Typed{j}", ["Verif.V3.MiniTyped", "Verif.Src.V3Mini"], "The typed methods of v3/minibuf.generated.go, from their text.", a)

PRE2 = """/-- the errors of v2/errors.go -/
def errs : List (Gen.Str × GoError) := [
  (str% "BufferOverreadError", V2.BufferOverreadError),
  (str% "BufferUnderreadError", V2.BufferUnderreadError),
  (str% "BufferOverwriteError", V2.BufferOverwriteError),
  (str% "BufferUnderwriteError", V2.BufferUnderwriteError),
  (str% "BufferInvalidByteCountError", V2.BufferInvalidByteCountError),
  (str% "BufferInvalidBitError", V2.BufferInvalidBitError)]

"""
PREMINI2 = PRE2 + """/-- the package: v2/minibuf.go and v2/utils.go -/
def P : Pkg := ⟨V2Utils.funs ++ funs, errs⟩

theorem atob (fuel d : Nat) (b : Bool) : P.call fuel (d + 1) (str% "atob") [.bool b] = (pure (.u8 (V2.atob b)) : GoM (V3.St × V) V) := by
  rw [call_of (f := V2Utils.fun_atob) (by rfl) (by rfl)]
  unfold V2Utils.fun_atob
  src
  cases b <;> rfl

"""
NEWMINI2 = """theorem NewMiniBuffer (fuel d : Nat) (hf : 2 ^ 64 < fuel) (l : List Slice) (hl : l.length < 2 ^ 63) :
    P.call fuel (d + 2) (str% "NewMiniBuffer") [.ptr, .slices l] =
    (onB (MODEL.NewMiniBuffer l) >>= fun x => pure .unit : GoM (V3.St × V) V) := by
  rw [call_of (f := fun_NewMiniBuffer) (by rfl) (by rfl)]
  unfold fun_NewMiniBuffer
  src [↓use (refresh fuel d), ↓gom_lit]
  gom [modB_modB, List.reverse_nil]
  rcases l with _ | ⟨s, _ | ⟨t, l⟩⟩
  · simp only [MODEL.NewMiniBuffer]; gom; rfl
  · simp only [MODEL.NewMiniBuffer]; gom; rfl
  · rw [if_neg (len_cons_ne hl), if_neg (len_cons_cons_ne hl)]
    simp only [MODEL.NewMiniBuffer]
    gom
    down
    refine loopRange_bind (U := V) (forLoop_eq _ _) (fun a u => [.ptr, .slices (s :: t :: l), u]) ?_
      (fun _ _ => rfl) _ 0 () .unit (Nat.lt_of_le_of_lt (left_le _ _) hf)
    intro i a u k k' h
    src
    gom
    down
    exact h _ _
"""
def wrap(name, args, ret, inner, d=2, loopy=False, suffix=""):
    st = "*" if ret[0] == "*" else ""
    return F(name, args, ret, d, [f"{st}{inner}:{d - 1}:{len(args)}{'!' if loopy else ''}"])
def mini2(v1=False):
    FOR = ("for",) if v1 else ()
    data = ("data", "u64"); r = ("r", "bool"); l = ("l", "li64"); d8 = ("data", "u8"); sl = ("data", "slice")
    hl = "(hl : l.length < 2 ^ 63) "
    fs = [
     F("seekbit", [off, r], "unit", tail=RUN), F("seekbit", [("off", "num"), r], "unit", th="seekbit_num", tail=RUN),
     F("readbit", [off], "*u8", 2, ["=atob:1:1"], extra=["bne_decide"]),
     F("readbits", [off, n], "*u64", 3, ["&readbit@u8:2:1"], loop=("[.ptr, .i64 off, .i64 n, .u8 a, .i64 i]", "Unit", "0", "0", "()") + FOR),
     F("setbit", [off, d8], "unit"),
     F("setbits", [off, data, n], "unit", 2, ["setbit:1:2"], loop=("[.i64 off, .u64 data, .i64 n, .i64 i]", "Unit", "0", "()", "()") + FOR),
     F("flipbit", [off], "unit")]
    whole = ("[u]", "V", "0", "()", ".unit", "range") if v1 else ("[.i64 i, .i64 _]", "Unit", "0", "()", "()")
    fs += [F(x, [], "unit", loop=whole) for x in ("clearallbits", "setallbits", "flipallbits")]
    fs += [
     F("afterbit", [l], "*i64", hyp=hl, tail=AFTERO),
     F("write", [off, sl], "unit", loop=("[.i64 off, .bytes (.mem data), .i64 i, .i64 (Int64.ofNat data.len)]", "Unit", "0", "()", "()")),
     F("read", [off, n], "*slice"),
     F("seek", [off, r], "unit", tail=RUN), F("seek", [("off", "num"), r], "unit", th="seek_num", tail=RUN),
     F("after", [l], "*i64", hyp=hl, tail=AFTERO),
     F("refresh", [], "unit", tail=RUN),
     F("grow", [n], "unit", 2, ["refresh:1:0"], lit="↓gom_make"),
     F("alignbit", [], "unit", tail=RUN), F("alignbyte", [], "unit", tail=RUN),
     F("reset", [], "unit", lit="↓gom_lit", extra=["List.reverse_nil"]),
     wrap("Reset", [], "unit", "reset"),
     F("NewMiniBuffer", [], "unit", raw=NEWMINI2.replace("MODEL", CUR["model"]))]
    fs += [F("Bytes", [], "*slice")] + [F(x, [], "*i64") for x in ("Capacity", "BitCapacity", "Offset", "BitOffset")]
    fs += [wrap("Refresh", [], "unit", "refresh"), wrap("Grow", [n], "unit", "grow", 3),
     wrap("Seek", [off, r], "unit", "seek"), wrap("SeekBit", [off, r], "unit", "seekbit"),
     wrap("AlignBit", [], "unit", "alignbit"), wrap("AlignByte", [], "unit", "alignbyte"),
     F("After", [l], "*i64", 2, ["*after:1:1:l:hl"], hyp=hl), F("AfterBit", [l], "*i64", 2, ["*afterbit:1:1:l:hl"], hyp=hl),
     wrap("ReadBytes", [off, n], "*slice", "read"), wrap("WriteBytes", [off, sl], "unit", "write", loopy=True),
     F("ReadBytesNext", [n], "*slice", 2, ["*read:1:2", "seek:1:2"]),
     F("WriteBytesNext", [sl], "unit", 2, ["write:1:2!", "seek:1:2"]),
     wrap("ReadBit", [off], "*u8", "readbit", 3), wrap("ReadBits", [off, n], "*u64", "readbits", 4, True),
     F("ReadBitNext", [], "*u8", 3, ["*readbit:2:1", "seekbit_num:1:2"]),
     F("ReadBitsNext", [n], "*u64", 4, ["*readbits:3:2!", "seekbit:1:2"]),
     wrap("SetBit", [off, d8], "unit", "setbit"), wrap("SetBits", [off, data, n], "unit", "setbits", 3, True),
     F("SetBitNext", [d8], "unit", 2, ["setbit:1:2", "seekbit_num:1:2"]),
     F("SetBitsNext", [data, n], "unit", 3, ["setbits:2:3!", "seekbit:1:2"]),
     wrap("FlipBit", [off], "unit", "flipbit"),
     F("FlipBitNext", [], "unit", 2, ["flipbit:1:1", "seekbit_num:1:2"]),
     wrap("ClearAllBits", [], "unit", "clearallbits", loopy=True), wrap("SetAllBits", [], "unit", "setallbits", loopy=True),
     wrap("FlipAllBits", [], "unit", "flipallbits", loopy=True)]
    return [f for f in fs if not (v1 and f.name in ("reset", "Reset"))]

def v2mini():
    CUR.update(name="V2Mini", model="V2.Mini")
    write("", ["Verif.Src.Text.V2Utils", "Verif.V2.Mini"], "The methods of v2/minibuf.go other than the typed ones, from their text.", mini2(), PREMINI2)
    fs = []
    for k, sz in KINDS[:3]:
        l = "l" + k.lower()
        for e in ("LE", "BE"):
            data = ("data", l); K = f"{k}{e}"
            fs += [
             F(f"write{K}", [off, data], "unit", loop=(f"[.i64 off, .{l} data, .i64 i, .i64 (Crunch.len data)]", "Unit", "0", "()", "()")),
             wrap(f"Write{K}", [off, data], "unit", f"write{K}", loopy=True),
             F(f"Write{K}Next", [data], "unit", 2, [f"write{K}:1:2!", "seek:1:2"]),
             F(f"read{K}", [off, n], "*" + l, loop=("[.ptr, .i64 off, .i64 n, .i64 i]", "Unit", "0", "()", "()")),
             wrap(f"Read{K}", [off, n], "*" + l, f"read{K}", loopy=True),
             F(f"Read{K}Next", [n], "*" + l, 2, [f"*read{K}:1:2!", "seek:1:2"])]
    write("Typed", ["Verif.V2.MiniTyped", "Verif.Src.V2Mini"], "The typed methods of v2/minibuf.go, from their text.", fs)

PREMINI1 = PREMINI2.replace("V2.", "V1.").replace("v2/", "v1/").replace("V2Utils", "V1Utils").replace('  (str% "BufferInvalidByteCountError"', """  (str% "BufferInvalidIntegerSizeError", V1.BufferInvalidIntegerSizeError),
  (str% "BufferInvalidEndiannessError", V1.BufferInvalidEndiannessError),
  (str% "BufferInvalidByteCountError\"""")
def v1mini():
    CUR.update(name="V1Mini", model="V1.Mini")
    write("", ["Verif.Src.Text.V1Utils", "Verif.V1.Mini"], "The methods of v1/minibuf.go other than those for complex values, from their text.", mini2(True), PREMINI1)

NEWBUF2 = """theorem NewBuffer (fuel d : Nat) (hf : 2 ^ 64 < fuel) (l : List Slice) (hl : l.length < 2 ^ 63) :
    P.call fuel (d + 2) (str% "NewBuffer") [.slices l] = (MODEL.NewBuffer l >>= fun x => pure .unit : Prog V) := by
  rw [call_of (f := fun_NewBuffer) (by rfl) (by rfl)]
  unfold fun_NewBuffer
  srcp [↓use (refresh fuel d)]
  prog [List.reverse_nil]
  rcases l with _ | ⟨s, _ | ⟨t, l⟩⟩
  · simp only [MODEL.NewBuffer]; prog; rfl
  · simp only [MODEL.NewBuffer]; prog; rfl
  · rw [if_neg (len_cons_ne hl), if_neg (len_cons_cons_ne hl)]
    simp only [MODEL.NewBuffer]
    prog
    downp
    refine loopRange_bind (U := V) (prog_forLoop _ _) (fun a u => [.slices (s :: t :: l), u]) ?_
      (fun _ _ => rfl) _ 0 () .unit (Nat.lt_of_le_of_lt (left_le _ _) hf)
    intro i a u k k' h
    srcp
    prog
    downp
    exact h _ _
"""
PREBUF2 = PREMINI2.replace("v2/minibuf.go", "v2/buffer.go").replace("GoM (V3.St × V) V", "Prog V").replace("  src\n", "  srcp\n")
AFTERP = """  rcases l with _ | ⟨o, l⟩
  · rfl
  · rw [if_neg (len_cons_ne hl)]
    rfl
"""
def buffer2(v1=False):
    FOR = ("for",) if v1 else ()
    data = ("data", "u64"); r = ("r", "bool"); l = ("l", "li64"); d8 = ("data", "u8"); sl = ("data", "slice")
    hl = "(hl : l.length < 2 ^ 63) "
    fs = [
     F("seekbit", [off, r], "unit"), F("seekbit", [("off", "num"), r], "unit", th="seekbit_num"),
     F("readbit", [off], "u8", 2, ["=atob:1:1"], extra=["bne_decide"]),
     F("readbits", [off, n], "u64", 3, ["readbit:2:1"], loop=("[.i64 off, .i64 n, .u64 a, .i64 i]", "Unit", "0", "0", "()") + FOR),
     F("setbit", [off, d8], "unit"),
     F("setbits", [off, data, n], "unit", 2, ["setbit:1:2"], loop=("[.i64 off, .u64 data, .i64 n, .i64 i]", "Unit", "0", "()", "()") + FOR),
     F("flipbit", [off], "unit")]
    whole = ("[u]", "V", "0", "()", ".unit", "range") if v1 else ("[.i64 i, .i64 _]", "Unit", "0", "()", "()")
    fs += [F(x, [], "unit", loop=whole) for x in ("clearallbits", "setallbits", "flipallbits")]
    fs += [
     F("afterbit", [l], "i64", hyp=hl, tail=AFTERP),
     F("write", [off, ("data", "src")], "unit", loop=("[.i64 off, .bytes data, .i64 i, .i64 (Int64.ofNat data.len)]", "Unit", "0", "()", "()")),
     F("read", [off, n], "slice"), F("read", [off, ("n", "num")], "slice", th="read_num"),
     F("seek", [off, r], "unit"), F("seek", [("off", "num"), r], "unit", th="seek_num"),
     F("after", [l], "i64", hyp=hl, tail=AFTERP),
     F("refresh", [], "unit"),
     F("grow", [n], "unit", 2, ["refresh:1:0"]),
     F("alignbit", [], "unit"), F("alignbyte", [], "unit"),
     F("reset", [], "unit", extra=["List.reverse_nil"]),
     wrap("Reset", [], "unit", "reset"),
     F("NewBuffer", [], "unit", raw=NEWBUF2.replace("MODEL", CUR["model"]))]
    fs += [F("Bytes", [], "slice")] + [F(x, [], "i64") for x in ("Capacity", "BitCapacity", "Offset", "BitOffset")]
    fs += [wrap("Refresh", [], "unit", "refresh"), wrap("Grow", [n], "unit", "grow", 3),
     wrap("Seek", [off, r], "unit", "seek"), wrap("SeekBit", [off, r], "unit", "seekbit"),
     wrap("AlignBit", [], "unit", "alignbit"), wrap("AlignByte", [], "unit", "alignbyte"),
     F("After", [l], "i64", 2, ["after:1:0:l:hl"], hyp=hl), F("AfterBit", [l], "i64", 2, ["afterbit:1:0:l:hl"], hyp=hl),
     F("ReadByte", [off], "u8", 2, ["read_num:1:2"]), F("WriteByte", [off, d8], "unit", 2, ["write:1:2!"]),
     F("ReadByteNext", [], "u8", 2, ["read_num:1:2", "seek_num:1:2"]), F("WriteByteNext", [d8], "unit", 2, ["write:1:2!", "seek_num:1:2"]),
     wrap("ReadBytes", [off, n], "slice", "read"), wrap("WriteBytes", [off, sl], "unit", "write", loopy=True),
     F("ReadBytesNext", [n], "slice", 2, ["read:1:2", "seek:1:2"]),
     F("WriteBytesNext", [sl], "unit", 2, ["write:1:2!", "seek:1:2"]),
     wrap("ReadBit", [off], "u8", "readbit", 3), wrap("ReadBits", [off, n], "u64", "readbits", 4, True),
     F("ReadBitNext", [], "u8", 3, ["readbit:2:1", "seekbit_num:1:2"]),
     F("ReadBitsNext", [n], "u64", 4, ["readbits:3:2!", "seekbit:1:2"]),
     wrap("SetBit", [off, d8], "unit", "setbit"), wrap("SetBits", [off, data, n], "unit", "setbits", 3, True),
     F("SetBitNext", [d8], "unit", 2, ["setbit:1:2", "seekbit_num:1:2"]),
     F("SetBitsNext", [data, n], "unit", 3, ["setbits:2:3!", "seekbit:1:2"]),
     wrap("FlipBit", [off], "unit", "flipbit"),
     F("FlipBitNext", [], "unit", 2, ["flipbit:1:1", "seekbit_num:1:2"]),
     wrap("ClearAllBits", [], "unit", "clearallbits", loopy=True), wrap("SetAllBits", [], "unit", "setallbits", loopy=True),
     wrap("FlipAllBits", [], "unit", "flipallbits", loopy=True)]
    return [f for f in fs if not (v1 and f.name in ("reset", "Reset"))]

def v2buffer():
    CUR.update(name="V2Buffer", model="V2.Buffer", prog=True)
    write("", ["Verif.Src.Text.V2Utils", "Verif.V2.Buffer"], "The methods of v2/buffer.go other than the typed ones, from their text.", buffer2(), PREBUF2)
    fs = []
    for k, sz in KINDS[:3]:
        l = "l" + k.lower()
        for e in ("LE", "BE"):
            data = ("data", l); K = f"{k}{e}"
            fs += [
             F(f"write{K}", [off, data], "unit", loop=(f"[.i64 off, .{l} data, .i64 i, .i64 (Crunch.len data)]", "Unit", "0", "()", "()")),
             wrap(f"Write{K}", [off, data], "unit", f"write{K}", loopy=True),
             F(f"Write{K}Next", [data], "unit", 2, [f"write{K}:1:2!", "seek:1:2"]),
             F(f"read{K}", [off, n], l, loop=(f"[.i64 off, .i64 n, .{l} a, .i64 i]", "Unit", "0", "_", "()")),
             wrap(f"Read{K}", [off, n], l, f"read{K}", loopy=True),
             F(f"Read{K}Next", [n], l, 2, [f"read{K}:1:2!", "seek:1:2"])]
    write("Typed", ["Verif.V2.BufferTyped", "Verif.Src.V2Buffer"], "The typed methods of v2/buffer.go, from their text.", fs)
    CUR.update(prog=False)

v3buffer()
v3mini()
v1mini()
v2mini()
v2buffer()
def v1buffer():
    CUR.update(name="V1Buffer", model="V1.Buffer", prog=True)
    pre = PREMINI1.replace("v1/minibuf.go", "v1/buffer.go").replace("GoM (V3.St × V) V", "Prog V").replace("  src\n", "  srcp\n")
    write("", ["Verif.Src.Text.V1Utils", "Verif.V1.Buffer"], "The methods of v1/buffer.go other than those for complex values, from their text.", buffer2(True), pre)
    CUR.update(prog=False)

v1buffer()
