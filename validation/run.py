#!/usr/bin/env python3
"""Run the project's own tests (/repo/v*/{buffer,minibuf,errors}_test.go) on the texts of the package.

Every Test function is straight-line code: it is translated statement by statement into a list of commands for the small runner in
Runner.lean.txt, which calls the functions of the package by name through the interpreter of Verif/Src/Sem.lean.  Nothing here is part of
a proof: it checks the interpreter (and so the model, which is proved equal to it) against expectations somebody else wrote down.

usage: run.py [OUT]   needs a built /verif/lean; prints one line per test that does not pass and a summary
"""
import os, re, struct, subprocess, sys

HERE = os.path.dirname(os.path.abspath(__file__))
LEAN = os.path.join(HERE, "..", "lean")
REPO = os.environ.get("REPO", "/repo")
TOK = re.compile(r'\s+|//[^\n]*|/\*.*?\*/|(?P<t>"(?:\\.|[^"\\])*"|0x[0-9a-fA-F]+|\d+\.\d*(?:[eE][+-]?\d+)?|\d+(?:[eE][+-]?\d+)?|[A-Za-z_]\w*|:=|==|!=|&&|\|\||<=|>=|\+\+|\.\.\.|[-{}()\[\],.;:=!&<>*+/])', re.S)


class Bad(Exception):
    pass


def lex(src):
    """Tokens with the semicolons Go inserts at line ends."""
    out, i = [], 0
    last_end = 0
    while i < len(src):
        m = TOK.match(src, i)
        if not m:
            raise Bad("token at %r" % src[i:i + 20])
        g = m.group("t")
        if g is None:
            if "\n" in m.group(0) and out and (re.match(r'[\w"]', out[-1][0]) or out[-1] in (")", "]", "}", "++")):
                if out[-1] not in ("var", "import", "package"):
                    out.append(";")
        else:
            out.append(g)
        i = m.end()
    return out


class P:
    def __init__(self, toks, mini):
        self.t, self.i, self.mini = toks, 0, mini
        self.cmds, self.panics, self.types = [], None, {}

    def peek(self, k=0):
        return self.t[self.i + k] if self.i + k < len(self.t) else None

    def next(self, want=None):
        x = self.t[self.i]
        if want is not None and x != want:
            raise Bad("expected %s got %s near %s" % (want, x, " ".join(self.t[self.i - 5:self.i + 5])))
        self.i += 1
        return x

    def eat(self, x):
        if self.peek() == x:
            self.i += 1
            return True
        return False

    # expressions are tuples
    def typ(self):
        if self.eat("["):
            self.next("]")
            return "[]" + self.typ()
        if self.eat("*"):
            return "*" + self.typ()
        x = self.next()
        if x == "interface":
            self.next("{"); self.next("}")
        return x

    def expr(self):
        return self.postfix(self.unary())

    def unary(self):
        if self.eat("-"):
            v = self.unary()
            return (v[0], -v[1])
        if self.eat("&"):
            x = self.next()
            if self.peek() == "{":
                return self.structlit(x)
            return ("addr", x)
        if self.peek() == "[":
            ty = self.typ()
            self.next("{")
            els = []
            while not self.eat("}"):
                v = self.unary()
                els.append(v[1])
                self.eat(",")
            return ("list", ty[2:], els)
        x = self.next()
        if x.startswith('"'):
            return ("str", x[1:-1])
        if x.startswith("0x"):
            return ("int", int(x, 16))
        if re.match(r"\d", x):
            return ("float", float(x)) if re.search(r"[.eE]", x) else ("int", int(x))
        if x in ("true", "false"):
            return ("bool", x)
        if x == "make":
            self.next("(")
            ty = self.typ()
            self.next(",")
            n = self.expr()[1]
            c = n
            if self.eat(","):
                c = self.expr()[1]
            self.next(")")
            assert ty == "[]byte"
            return ("make", n, c)
        if x in ("int64", "uint64", "byte") and self.peek() == "(":
            self.next("(")
            v = self.expr()
            self.next(")")
            return v
        return ("var", x)

    def structlit(self, name):
        self.next("{")
        f = {}
        while not self.eat("}"):
            k = self.next()
            self.next(":")
            f[k] = self.expr()
            if not self.eat(","):
                self.eat(";")
        return ("struct", name, f)

    def args(self):
        self.next("(")
        a = []
        while not self.eat(")"):
            a.append(self.expr())
            self.eat(",")
        return a

    def postfix(self, e):
        while True:
            if self.peek() == "." and self.peek(1) == "(":
                self.i += 2
                self.typ()
                self.next(")")
            elif self.peek() == ".":
                self.next()
                f = self.next()
                if self.peek() == "(":
                    e = ("call", e, f, self.args())
                else:
                    e = ("field", e, f)
            elif self.peek() == "[" and e[0] in ("var", "call", "idx"):
                self.next()
                a = self.expr()
                if self.eat(":"):
                    b = self.expr()
                    e = ("sub", e, a[1], b[1])
                else:
                    e = ("idx", e, a[1])
                self.next("]")
            elif self.peek() == "(" and e[0] == "var":
                e = ("call", None, e[1], self.args())
            else:
                return e

    # Lean
    def V(self, e, want=None):
        """A Lean expression of type X."""
        k = e[0]
        if k == "int":
            return ".v (.num %d)" % e[1] if e[1] >= 0 else ".v (.i64 (%d))" % e[1]
        if k == "bool":
            return ".v (.bool %s)" % e[1]
        if k == "list":
            ty, l = e[1], e[2]
            if ty == "byte":
                return ".bytes [%s]" % ", ".join(map(str, l))
            if ty in ("float32", "float64"):
                w = 32 if ty == "float32" else 64
                f = (lambda x: struct.unpack("<I", struct.pack("<f", x))[0]) if w == 32 else (lambda x: struct.unpack("<Q", struct.pack("<d", x))[0])
                return ".v (.lf%d [%s])" % (w, ", ".join("⟨%d⟩" % f(x) for x in l))
            m = re.match(r"(u?)int(16|32|64)$", ty)
            return ".v (.l%s%s [%s])" % ("u" if m.group(1) else "i", m.group(2), ", ".join("(%d)" % x for x in l))
        if k == "make":
            return ".make %d %d" % (e[1], e[2])
        if k == "var":
            c = {"Unsigned8": 1, "Unsigned16": 2, "Unsigned32": 4, "Unsigned64": 8}
            if e[1] in c:
                return ".v (.i64 %d)" % c[e[1]]
            if e[1] in ("LittleEndian", "BigEndian"):
                return ".v (.order (some .%s))" % ("le" if e[1] == "LittleEndian" else "be")
            return '.var "%s"' % e[1]
        if k == "idx":
            return '.idx (%s) %d' % (self.V(e[1]), e[2])
        if k == "sub":
            return '.sub (%s) %d %d' % (self.V(e[1]), e[2], e[3])
        if k == "field":
            return '.field "%s" "%s"' % (e[1][1], e[2])
        if k == "str":
            return '.str "%s"' % e[1]
        if k == "struct":
            f = e[2]
            g = lambda n: f.get(n, ("int", 0))[1]
            b = f.get("buf", ("list", "byte", []))[2]
            return ".lit [%s] (%d) (%d) (%d) (%d)" % (", ".join(map(str, b)), g("off"), g("cap"), g("boff"), g("bcap"))
        raise Bad("expression %r" % (e,))

    def zero(self, ty):
        if ty in ("int64", "byte", "uint64"):
            return ".v (.%s 0)" % {"int64": "i64", "byte": "u8", "uint64": "u64"}[ty]
        if ty.startswith("[]"):
            return self.V(("list", ty[2:], []))
        if ty == "interface":
            return ".v .unit"
        raise Bad("zero " + ty)

    def typed(self, ty, e):
        if e[0] == "int" and ty in ("int64", "byte", "uint64"):
            return ".v (.%s (%d))" % ({"int64": "i64", "byte": "u8", "uint64": "u64"}[ty], e[1])
        return self.V(e)

    def calllist(self, m, a):
        if m in ("After", "AfterByte", "AfterBit"):
            return ["(.v (.li64 [%s]))" % ", ".join("(%d)" % x[1] for x in a)]
        if m.lower() == "writecomplex" and a[1][0] == "int":
            a = [a[0], ("unit",)] + a[2:]
            return ["(.v .unit)" if x[0] == "unit" else "(%s)" % self.V(x) for x in a]
        return ["(%s)" % self.V(x) for x in a]

    def assign(self, x, e):
        if e[0] == "call" and e[1] is None and e[2] == "NewBuffer":
            self.cmds.append('.newBuffer "%s" [%s]' % (x, ", ".join(self.V(a) for a in e[3])))
        elif e[0] == "call" and e[1] is not None and e[1][0] == "var" and e[2] == "Error":
            self.cmds.append('.errText "%s" "%s"' % (x, e[1][1]))
        elif e[0] == "call" and e[1] is not None and e[1][0] == "var":
            self.cmds.append('.call "%s" "%s" (str%% "%s") [%s]' % (x, e[1][1], e[2], ", ".join(self.calllist(e[2], e[3]))))
        elif e[0] == "struct" and not e[2] and self.mini and e[1] == "MiniBuffer":
            self.cmds.append('.set "%s" (%s)' % (x, self.V(e)))
        else:
            self.cmds.append('.set "%s" (%s)' % (x, self.V(e)))

    def vardecl(self):
        x = self.next()
        if self.peek() == "=":
            self.next()
            self.assign(x, self.expr())
            return
        ty = self.typ()
        if self.eat("="):
            e = self.expr()
            self.cmds.append('.set "%s" (%s)' % (x, self.typed(ty, e)))
        else:
            self.cmds.append('.set "%s" (%s)' % (x, self.zero(ty)))

    def cond(self):
        """Comparisons of which one must not be true."""
        out = []
        while True:
            if self.eat("!"):
                e = self.expr()
                if e[0] != "call" or e[2] != "Equal":
                    raise Bad("condition %r" % (e,))
                out.append((e[3][0], e[3][1]))
            else:
                a = self.expr()
                self.next("!=")
                out.append((a, self.expr()))
            if not self.eat("||"):
                return out

    def block(self):
        self.next("{")
        while not self.eat("}"):
            if self.eat(";"):
                continue
            self.stmt()

    def stmt(self):
        if self.eat("var"):
            if self.eat("("):
                while not self.eat(")"):
                    if self.eat(";"):
                        continue
                    self.vardecl()
            else:
                self.vardecl()
        elif self.eat("defer"):
            e = self.expr()
            if e[2] != "panicChecker":
                raise Bad("defer")
            self.panics = [a[1] for a in e[3][1:]]
        elif self.eat("if"):
            c = self.cond()
            self.next("{")
            if self.next() != "t":
                raise Bad("if")
            d = 1
            while d:
                x = self.next()
                d += (x == "{") - (x == "}")
            for a, b in c:
                self.cmds.append(".same (%s) (%s)" % (self.V(a), self.V(b)))
        elif self.peek() == "t":
            self.expr()
        elif self.peek(1) in (":=", "="):
            x = self.next()
            self.next()
            e = self.expr()
            if x == "_" and e[0] == "var":
                return
            self.assign(x, e)
        else:
            e = self.expr()
            if e[0] != "call":
                raise Bad("statement %r" % (e,))
            if e[1] is None:
                if e[2] != "NewMiniBuffer":
                    raise Bad("call " + e[2])
                self.cmds.append('.newMini "%s" [%s]' % (e[3][0][1], ", ".join(self.V(a) for a in e[3][1:])))
            elif self.mini:
                a = e[3]
                out = "none"
                if a and a[0][0] == "addr":
                    out, a = 'some "%s"' % a[0][1], a[1:]
                self.cmds.append('.callMini "%s" (str%% "%s") (%s) [%s]' % (e[1][1], e[2], out, ", ".join(self.calllist(e[2], a))))
            else:
                self.assign("_", e)


def tests(path, mini):
    src = open(path).read()
    for m in re.finditer(r"^func (Test\w+)\(t \*testing\.T\) (\{.*?^\})", src, re.S | re.M):
        p = P(lex(m.group(2)), mini)
        try:
            p.block()
            yield m.group(1), p.cmds, p.panics
        except (Bad, AssertionError, KeyError, TypeError, IndexError) as ex:
            yield m.group(1), None, repr(ex)


def main():
    out = open(os.path.join(HERE, "Runner.lean.txt")).read()
    bad = []
    n = 0
    for v in ("1", "2", "3"):
        for f, mini, eng in (("buffer", False, "buf%s" % v), ("minibuf", True, "mini%s" % v), ("errors", False, "buf%s" % v)):
            path = "%s/v%s/%s_test.go" % (REPO, v, f)
            for name, cmds, pan in tests(path, mini):
                n += 1
                if cmds is None:
                    bad.append((path, name, pan))
                    continue
                ps = "none" if pan is None else "(some [%s])" % ", ".join('str%% "%s"' % x for x in pan)
                out += '\n#eval check "v%s/%s_test.go %s" %s %s [\n  %s]\n' % (v, f, name, eng, ps, ",\n  ".join(cmds))
    tmp = sys.argv[1] if len(sys.argv) > 1 else "/tmp/tests.lean"
    open(tmp, "w").write(out)
    for b in bad:
        print("not translated", *b)
    r = subprocess.run(["lake", "env", "lean", tmp], cwd=LEAN, capture_output=True, text=True)
    lines = (r.stdout + r.stderr).splitlines()
    ok = sum(1 for l in lines if l.startswith("pass "))
    for l in lines:
        if not l.startswith("pass "):
            print(l)
    print(n, "tests,", ok, "pass,", len(bad), "not translated")


main()
