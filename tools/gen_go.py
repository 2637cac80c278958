#!/usr/bin/env python3
"""Read the Go sources in /repo and write their syntax trees as Lean terms (lean/Verif/Go/Names.lean and
lean/Verif/Go/Source*.lean). Nothing is interpreted here: the meaning of the trees is lean/Verif/Go/Semantics.lean.

The only work beyond parsing is what the Go compiler does statically:
  * names are resolved (methods of the embedded `validator`, package functions, constants, pointer parameters);
  * zero values and composite literals are written out field by field from the struct declarations;
  * `x op= e` is `x = x op e`; `switch` is a chain of `if`; `if init; cond` is a block.
Anything outside the subset the code uses stops the program with an error.

usage: gen_go.py REPO OUTDIR
"""
import re
import sys

REPO, OUT = sys.argv[1], sys.argv[2]

FILES = [  # path, prefix of the functions and methods declared in it
    ("internal/common/constants.go", "co"),
    ("internal/common/errors.go", "co"),
    ("internal/common/utils.go", "co"),
    ("internal/types/types.go", "ty"),
    ("internal/lexer/lexer.go", "lx"),
    ("internal/validator/validator.go", "va"),
    ("internal/validator/validator_sqlite.go", "sq"),
    ("internal/validator/validator_postgresql.go", "pg"),
    ("internal/validator/validator_mysql.go", "my"),
    ("internal/converter/converter.go", "cv"),
    ("ddlparse.go", "dp"),
]


def die(msg):
    sys.exit("gen_go: " + msg)


# ---------------------------------------------------------------- tokens

TOKEN = re.compile(
    r"(?P<space>[ \t\r]+)|(?P<nl>\n)|(?P<lc>//[^\n]*)|(?P<bc>/\*[\s\S]*?\*/)"
    r"|(?P<id>[A-Za-z_][A-Za-z_0-9]*)|(?P<int>[0-9]+)"
    r'|(?P<str>"(?:[^"\\\n]|\\.)*")|(?P<raw>`[^`]*`)'
    r"|(?P<op>\.\.\.|:=|==|!=|<=|>=|&&|\|\||\+=|-=|[-+*/<>=!&(){}\[\],;:.])"
)
ENDERS = {"id", "int", "str", "raw"}
KEYWORDS_NO_SEMI = {"if", "for", "func", "else", "switch", "case", "var", "const", "type", "struct", "interface",
                    "package", "import", "range"}


def tokenize(src, name):
    """Tokens with Go's automatic semicolons."""
    out, i, line = [], 0, 1

    def semi():
        if not out:
            return
        k, t, _ = out[-1]
        if (k in ENDERS and t not in KEYWORDS_NO_SEMI) or (k == "op" and t in (")", "]", "}")):
            out.append(("op", ";", line))

    while i < len(src):
        m = TOKEN.match(src, i)
        if not m:
            die("%s:%d: unexpected character %r" % (name, line, src[i]))
        kind, text = m.lastgroup, m.group()
        i = m.end()
        if kind in ("space", "lc"):
            continue
        if kind == "bc":
            if "\n" in text:
                semi()
            line += text.count("\n")
            continue
        if kind == "nl":
            semi()
            line += 1
            continue
        out.append((kind, text, line))
        line += text.count("\n")
    semi()
    out.append(("eof", "", line))
    return out


def unquote(kind, text):
    if kind == "raw":
        return text[1:-1]
    esc = {"n": "\n", "t": "\t", '"': '"', "\\": "\\"}
    return re.sub(r"\\(.)", lambda m: esc[m.group(1)], text[1:-1])


# ---------------------------------------------------------------- parser

class Parser:
    """Recursive descent; trees are tuples."""

    def __init__(self, toks, name):
        self.t, self.p, self.name = toks, 0, name

    def peek(self, k=0):
        return self.t[self.p + k][1]

    def kind(self, k=0):
        return self.t[self.p + k][0]

    def line(self):
        return self.t[self.p][2]

    def fail(self, msg="syntax"):
        die("%s:%d: %s near %r" % (self.name, self.line(), msg, self.peek()))

    def eat(self, text=None):
        k, t, _ = self.t[self.p]
        if text is not None and (t != text or k in ("str", "raw")):
            self.fail("expected %r" % text)
        self.p += 1
        return t

    def at(self, text):
        return self.peek() == text and self.kind() in ("op", "id")

    def opt(self, text):
        if self.at(text):
            self.p += 1
            return True
        return False

    def ident(self):
        if self.kind() != "id":
            self.fail("expected a name")
        return self.eat()

    # ---- types

    def type(self):
        if self.opt("*"):
            return ("ptr", self.type())
        if self.opt("["):
            self.eat("]")
            return ("slice", self.type())
        if self.opt("..."):
            return ("variadic", self.type())
        if self.opt("func"):
            self.eat("(")
            a = self.type()
            self.eat(")")
            return ("func", a, self.type())
        if self.opt("interface"):
            self.eat("{")
            self.eat("}")
            return ("name", "interface{}")
        n = self.ident()
        if self.opt("."):
            n += "." + self.ident()
        return ("name", n)

    # ---- declarations

    def file(self):
        decls = []
        self.eat("package")
        self.ident()
        self.eat(";")
        while self.kind() != "eof":
            if self.opt("import"):
                self.eat("(")
                while not self.opt(")"):
                    self.p += 1
                self.eat(";")
            elif self.at("type"):
                decls += self.typedecl()
            elif self.at("const"):
                decls += self.constdecl()
            elif self.at("var"):
                self.eat("var")
                n = self.ident()
                self.eat("=")
                decls.append(("var", n, self.expr()))
                self.eat(";")
            elif self.at("func"):
                decls.append(self.func())
            else:
                self.fail()
        return decls

    def typedecl(self):
        self.eat("type")
        out = []
        if self.opt("("):
            while not self.opt(")"):
                n = self.ident()
                self.eat("=")
                out.append(("alias", n, self.type()))
                self.eat(";")
        else:
            n = self.ident()
            if self.opt("interface"):
                self.eat("{")
                while not self.opt("}"):
                    self.p += 1
                out.append(("interface", n))
            elif self.opt("struct"):
                self.eat("{")
                fields = []
                while not self.opt("}"):
                    f = self.ident()
                    if self.opt(";"):
                        fields.append((None, ("name", f)))      # embedded
                        continue
                    ty = self.type()
                    if self.kind() == "raw":
                        self.eat()                               # tag
                    self.eat(";")
                    fields.append((f, ty))
                out.append(("struct", n, fields))
            else:
                out.append(("newtype", n, self.type()))
        self.eat(";")
        return out

    def constdecl(self):
        self.eat("const")
        out = []

        def one():
            n = self.ident()
            ty = None if self.at("=") else self.type()
            self.eat("=")
            out.append(("const", n, ty, self.expr()))
            self.eat(";")

        if self.opt("("):
            while not self.opt(")"):
                one()
            self.eat(";")
        else:
            one()
        return out

    def params(self):
        self.eat("(")
        out = []
        while not self.opt(")"):
            out.append((self.ident(), self.type()))
            self.opt(",")
        return out

    def func(self):
        start = self.line()
        self.eat("func")
        recv = None
        if self.at("("):
            (recv,) = self.params()
        name = self.ident()
        params = self.params()
        if self.at("{"):
            result = None
        elif self.opt("("):
            rs = [self.type()]
            while self.opt(","):
                rs.append(self.type())
            self.eat(")")
            result = ("tuple", rs)
        else:
            result = self.type()
        body = self.block()
        end = self.t[self.p - 1][2]
        self.opt(";")
        return ("func", recv, name, params, result, body, start, end)

    # ---- statements

    def block(self):
        self.eat("{")
        out = []
        while not self.opt("}"):
            if self.opt(";"):
                continue
            out.append(self.stmt())
            if not self.at("}"):
                self.eat(";")
        return out

    def simple(self):
        """expression, `a, b := e`, `a = e`, `a += e`"""
        lhs = [self.expr()]
        while self.opt(","):
            lhs.append(self.expr())
        for op in (":=", "=", "+=", "-="):
            if self.opt(op):
                return ("assign", op, lhs, self.expr())
        if len(lhs) != 1:
            self.fail()
        return ("expr", lhs[0])

    def stmt(self):
        if self.opt("return"):
            es = []
            if not self.at(";") and not self.at("}"):
                es.append(self.expr())
                while self.opt(","):
                    es.append(self.expr())
            return ("return", es)
        if self.opt("break"):
            return ("break",)
        if self.opt("continue"):
            return ("continue",)
        if self.at("if"):
            return self.ifstmt()
        if self.opt("for"):
            if self.at("{"):
                return ("for", None, self.block())
            if self.at("_") and self.peek(1) == ",":
                self.eat("_")
                self.eat(",")
                x = self.ident()
                self.eat(":=")
                self.eat("range")
                e = self.expr(False)
                return ("range", x, e, self.block())
            c = self.expr(False)
            return ("for", c, self.block())
        if self.opt("switch"):
            e = self.expr(False)
            self.eat("{")
            cases = []
            while not self.opt("}"):
                self.eat("case")
                c = self.expr()
                self.eat(":")
                body = []
                while not self.at("case") and not self.at("}"):
                    body.append(self.stmt())
                    self.eat(";")
                cases.append((c, body))
            return ("switch", e, cases)
        if self.opt("var"):
            x = self.ident()
            return ("var", x, self.type())
        return self.simple()

    def ifstmt(self):
        self.eat("if")
        init, c = None, self.head()
        if c[0] != "expr":
            init = c
            self.eat(";")
            c = self.head()
        if c[0] != "expr":
            self.fail("condition")
        then = self.block()
        els = []
        if self.opt("else"):
            els = [self.ifstmt()] if self.at("if") else self.block()
        return ("if", init, c[1], then, els)

    def head(self):
        self.nolit = True
        r = self.simple()
        self.nolit = False
        return r

    nolit = False

    # ---- expressions

    def expr(self, lit=True):
        save = self.nolit
        if not lit:
            self.nolit = True
        e = self.orexpr()
        self.nolit = save
        return e

    def binary(self, ops, sub):
        e = sub()
        while self.kind() == "op" and self.peek() in ops:
            op = self.eat()
            e = ("bin", op, e, sub())
        return e

    def orexpr(self):
        return self.binary(("||",), self.andexpr)

    def andexpr(self):
        return self.binary(("&&",), self.cmpexpr)

    def cmpexpr(self):
        return self.binary(("==", "!=", ">", "<", ">=", "<="), self.addexpr)

    def addexpr(self):
        return self.binary(("+", "-"), self.unary)

    def unary(self):
        if self.opt("!"):
            return ("not", self.unary())
        if self.opt("&"):
            return ("addr", self.unary())
        if self.opt("*"):
            return ("deref", self.unary())
        return self.postfix()

    def args(self):
        self.eat("(")
        save, self.nolit = self.nolit, False
        out = []
        while not self.opt(")"):
            e = self.expr()
            if self.opt("..."):
                e = ("spread", e)
            out.append(e)
            self.opt(",")
        self.nolit = save
        return out

    def postfix(self):
        k = self.kind()
        if k == "int":
            e = ("int", int(self.eat()))
        elif k in ("str", "raw"):
            e = ("str", unquote(k, self.eat()))
        elif self.opt("("):
            save, self.nolit = self.nolit, False
            e = self.expr()
            self.nolit = save
            self.eat(")")
        elif self.at("["):
            ty = self.type()
            if self.at("{"):
                e = ("complit", ty, self.litbody())
            else:
                e = ("conv", ty, self.args())
        elif k == "id":
            e = ("id", self.eat())
        else:
            self.fail("expression")
        while True:
            if self.opt("."):
                e = ("sel", e, self.ident())
            elif self.at("("):
                e = ("call", e, self.args())
            elif self.opt("["):
                lo = self.expr()
                if self.opt(":"):
                    hi = self.expr()
                    e = ("slice", e, lo, hi)
                else:
                    e = ("index", e, lo)
                self.eat("]")
            elif self.at("{") and not self.nolit and e[0] in ("id", "sel"):
                e = ("complit", ("name", e[1]), self.litbody())
            else:
                return e

    def litbody(self):
        self.eat("{")
        out = []
        while not self.opt("}"):
            if self.kind() == "id" and self.peek(1) == ":":
                f = self.ident()
                self.eat(":")
                out.append((f, self.expr()))
            else:
                out.append((None, self.expr()))
            self.opt(",")
            self.opt(";")
        return out


# ---------------------------------------------------------------- whole program

decls = []          # (prefix, path, decl)
for path, prefix in FILES:
    src = open(REPO + "/" + path, encoding="utf-8").read()
    for d in Parser(tokenize(src, path), path).file():
        decls.append((prefix, path, d))

structs, funcs, methods, consts, gvars = {}, {}, {}, {}, {}
for prefix, path, d in decls:
    if d[0] == "struct":
        structs[d[1]] = d[2]
    elif d[0] == "const":
        consts.setdefault(prefix, {})[d[1]] = (d[2], d[3])
    elif d[0] == "var":
        gvars[d[1]] = d[2]
    elif d[0] == "func":
        f = dict(prefix=prefix, path=path, recv=d[1], name=d[2], params=d[3], result=d[4], body=d[5], lines=(d[6], d[7]),
                 fn=prefix + "_" + d[2])
        if d[1] is None:
            funcs[(prefix, d[2])] = f
        else:
            methods[(d[1][1][1][1] if d[1][1][0] == "ptr" else d[1][1][1], d[2])] = f

PKG = {"common": "co", "types": "ty", "lexer": "lx", "validator": "va", "converter": "cv"}
SAMEPKG = {"sq": ["sq", "pg", "my", "va"], "pg": ["pg", "sq", "my", "va"], "my": ["my", "sq", "pg", "va"],
           "va": ["va", "sq", "pg", "my"]}
RDBMS = {"SQLite": "sqlite", "PostgreSQL": "postgres", "MySQL": "mysql"}
LIB = {("strings", "ToUpper"): "toUpper", ("strings", "ToLower"): "toLower", ("strconv", "Atoi"): "atoi",
       ("strconv", "ParseFloat"): "parseFloat", ("regexp", "MustCompile"): "compile"}

used_vars, used_flds, words = set(), set(), {}
LEANKW = {"end", "begin", "set", "at", "in", "do", "then", "else", "if", "match", "fun", "let", "by", "from", "with", "have",
          "show", "private", "init", "where", "open", "nil", "rec", "prefix"}


def lname(x):
    return "«%s»" % x if x in LEANKW else x


def V(x):
    used_vars.add(x)
    return "." + lname(x)


def F(x):
    used_flds.add(x)
    return "." + lname(x)


def lit(s):
    """A Lean string literal."""
    out = ""
    for c in s:
        out += {"\n": "\\n", "\t": "\\t", '"': '\\"', "\\": "\\\\"}.get(c, c)
    return '"' + out + '"'


def S(s):
    return ".str (S %s)" % lit(s)


def base(ty):
    return ty[1].split(".")[-1]


def flat(name):
    """Fields of a struct, those of embedded structs included."""
    out = []
    for f, ty in structs[name]:
        if f is None:
            out += flat(base(ty))
        else:
            out.append((f, ty))
    return out


def zero(ty):
    """Zero value of a type, as a Lean `Val`."""
    if ty[0] in ("slice", "ptr"):
        return ".nil"
    n = base(ty)
    if n in ("string", "Rdbms"):
        return ".str []"
    if n == "int":
        return ".int 0"
    if n == "bool":
        return ".bool false"
    if n in ("interface{}", "error"):
        return ".nil"
    if n in structs:
        return ".obj .%s [%s]" % (n, ", ".join("(%s, %s)" % (F(f), zero(t)) for f, t in flat(n)))
    die("zero value of %r" % (ty,))


def constant(prefix, name):
    ty, e = consts[prefix][name]
    if ty is not None and base(ty) == "Rdbms":
        if e != ("str", name):
            die("constant " + name)
        return "(.lit (.rdbms .%s))" % RDBMS[name]
    if e[0] == "str":
        return "(.lit (%s))" % S(e[1])
    if e[0] == "sel" and e[1] == ("id", "common"):
        return constant("co", e[2])
    die("constant " + name)


class Emit:
    def __init__(self, f):
        self.f = f
        self.prefix = f["prefix"]
        self.recv = f["recv"][0] if f["recv"] else None
        self.recvty = None
        if f["recv"]:
            t = f["recv"][1]
            self.recvty = base(t[1] if t[0] == "ptr" else t)
        self.scopes = [{p: t for p, t in f["params"]}]

    # -- names

    def local(self, x):
        for s in reversed(self.scopes):
            if x in s:
                return s[x]
        return None

    def isptr(self, x):
        t = self.local(x)
        return t is not None and t[0] == "ptr"

    def find_func(self, name):
        for p in SAMEPKG.get(self.prefix, [self.prefix]):
            if (p, name) in funcs:
                return funcs[(p, name)]
        return None

    def find_method(self, ty, name):
        if (ty, name) in methods:
            return methods[(ty, name)]
        for f, t in structs[ty]:
            if f is None:
                return self.find_method(base(t), name)
        return None

    # -- expressions

    def e(self, x):
        k = x[0]
        if k == "int":
            return "(.lit (.int %d))" % x[1]
        if k == "str":
            return "(.lit (%s))" % S(x[1])
        if k == "id":
            return self.name(x[1])
        if k == "sel":
            if x[1][0] == "id":
                o, f = x[1][1], x[2]
                if o == self.recv:
                    return "(.field %s)" % F(f)
                if self.local(o) is not None:
                    return "(.sel (.var %s) %s)" % (V(o), F(f))
                if o in PKG and f in consts.get(PKG[o], {}):
                    return constant(PKG[o], f)
                if (o, f) in LIB:
                    return "(.lit (.fn .%s))" % LIB[(o, f)]
            die("%s: selector %r" % (self.f["fn"], x))
        if k == "not":
            return "(.not %s)" % self.e(x[1])
        if k == "deref":
            return self.e(x[1])          # pointer parameters are passed by value and result
        if k == "bin":
            op = {"&&": "and", "||": "or", "==": "eq", "!=": "ne", "+": "add", "-": "sub", ">": "gt"}[x[1]]
            return "(.%s %s %s)" % (op, self.e(x[2]), self.e(x[3]))
        if k == "index":
            return "(.index %s %s)" % (self.e(x[1]), self.e(x[2]))
        if k == "slice":
            return "(.slice %s %s %s)" % (self.e(x[1]), self.e(x[2]), self.e(x[3]))
        if k == "complit":
            return self.complit(x)
        if k == "conv":
            if x[1] == ("slice", ("name", "rune")):
                return "(.lib .runes %s)" % self.args(x[2])
            die("conversion %r" % (x[1],))
        if k == "addr":
            if x[1][0] == "complit":
                return self.complit(x[1])
            die("%s: & outside a call" % self.f["fn"])
        if k == "call":
            return self.call(x)
        die("%s: expression %r" % (self.f["fn"], x))

    def name(self, n):
        if self.local(n) is not None:
            return "(.var %s)" % V(n)
        if n in ("true", "false"):
            return "(.lit (.bool %s))" % n
        if n == "nil":
            return "(.lit .nil)"
        if n in gvars:
            words[n] = gvars[n]
            return "(.lit (.kws %s))" % n
        if n in consts.get(self.prefix, {}):
            return constant(self.prefix, n)
        die("%s: unknown name %s" % (self.f["fn"], n))

    def complit(self, x):
        ty, items = x[1], x[2]
        if ty[0] == "slice":
            if base(ty[1]) == "string":
                if not items:
                    return "(.lit (.strs []))"
                return "(.lit (.kws [%s]))" % ", ".join(lit(i[1][1]) for i in items)
            if not items:
                return "(.lit (.slice []))"
            vs = [self.e(i[1]) for i in items]
            pre, post = "(.lit (", "))"
            if not all(v.startswith(pre) for v in vs):
                die("slice literal")
            return "(.lit (.slice [%s]))" % ", ".join(v[len(pre):-len(post)] for v in vs)
        n = base(ty)
        if n == "ValidateError":
            return "(.lib .mkErr %s)" % self.args([i[1] for i in items])
        given = dict(items)
        if any(f is None for f, _ in structs[n]):
            # struct that only embeds another: `T{validator: validator{}}`
            if [i[0] for i in items] != [base(structs[n][0][1])] or items[0][1][2]:
                die("composite literal of " + n)
            return "(.lit (%s))" % zero(ty)
        if not given:
            return "(.lit (%s))" % zero(ty)
        (g,) = given
        rest = [(f, t) for f, t in flat(n)]
        return "(.mk .%s [%s] %s %s)" % (n, ", ".join("(%s, %s)" % (F(f), zero(t)) for f, t in rest), F(g), self.e(given[g]))

    def args(self, xs):
        out = ".nil"
        for x in reversed(xs):
            out = "(.cons %s %s)" % (self.arg(x), out)
        return out

    def arg(self, x):
        if x[0] == "addr" and x[1][0] == "id":
            return "(.addr %s)" % V(x[1][1])
        if x[0] == "id" and self.isptr(x[1]):
            return "(.addr %s)" % V(x[1])
        return self.e(x)

    def callargs(self, f, xs):
        ps = f["params"]
        if ps and ps[-1][1][0] == "variadic":
            fixed, rest = xs[:len(ps) - 1], xs[len(ps) - 1:]
            if len(rest) == 1 and rest[0][0] == "spread":
                last = rest[0][1]
            elif all(r[0] == "str" for r in rest):
                last = ("complit", ("slice", ("name", "string")), [(None, r) for r in rest])
            else:
                die("variadic arguments")
            return self.args(fixed + [last])
        if len(ps) != len(xs):
            die("%s: arity of %s" % (self.f["fn"], f["fn"]))
        return self.args(xs)

    def call(self, x):
        f, xs = x[1], x[2]
        if f[0] == "id":
            n = f[1]
            if self.local(n) is not None:
                return "(.callv %s %s)" % (V(n), self.args(xs))
            if n == "len":
                return "(.lib .len %s)" % self.args(xs)
            if n == "string":
                return "(.lib .string %s)" % self.args(xs)
            if n == "append":
                if xs[1][0] == "spread":
                    return "(.lib .appendAll %s)" % self.args([xs[0], xs[1][1]])
                return "(.lib .append %s)" % self.args(xs)
            g = self.find_func(n)
            if g is None:
                die("%s: unknown function %s" % (self.f["fn"], n))
            return "(.call .%s %s)" % (g["fn"], self.callargs(g, xs))
        if f[0] == "sel" and f[1][0] == "id":
            o, n = f[1][1], f[2]
            if o == self.recv:
                g = self.find_method(self.recvty, n)
                if g is None:
                    die("%s: unknown method %s" % (self.f["fn"], n))
                return "(.call .%s %s)" % (g["fn"], self.callargs(g, xs))
            if self.local(o) is not None:
                if n == "MatchString":
                    return "(.lib .matchString %s)" % self.args([("id", o)] + xs)
                return "(.invoke %s .%s %s)" % (V(o), n, self.args(xs))
            if (o, n) in LIB:
                return "(.lib .%s %s)" % (LIB[(o, n)], self.args(xs))
            if o in PKG and (PKG[o], n) in funcs:
                g = funcs[(PKG[o], n)]
                return "(.call .%s %s)" % (g["fn"], self.callargs(g, xs))
        die("%s: call %r" % (self.f["fn"], x))

    # -- statements

    def declare(self, x, ty=("name", "?")):
        self.scopes[-1][x] = ty

    def block(self, ss):
        self.scopes.append({})
        out = self.seq(ss)
        self.scopes.pop()
        return "(.block %s)" % out

    def seq(self, ss):
        if not ss:
            return ".skip"
        parts = [self.s(s) for s in ss]
        out = parts[-1]
        for p in reversed(parts[:-1]):
            out = "(.seq %s\n%s)" % (p, out)
        return out

    def lhs(self, x):
        if x == ("id", "_"):
            return ".blank"
        if x[0] == "deref":
            x = x[1]
        if x[0] == "id":
            return "(.var %s)" % V(x[1])
        if x[0] == "sel" and x[1] == ("id", self.recv):
            return "(.recv %s)" % F(x[2])
        if x[0] == "sel" and x[1][0] == "id":
            return "(.fld %s %s)" % (V(x[1][1]), F(x[2]))
        die("%s: assignment to %r" % (self.f["fn"], x))

    def s(self, x):
        k = x[0]
        if k == "expr":
            return "(.expr %s)" % self.e(x[1])
        if k == "return":
            if not x[1]:
                return "(.ret (.tuple .nil))"
            if len(x[1]) == 1:
                return "(.ret %s)" % self.e(x[1][0])
            return "(.ret (.tuple %s))" % self.args(x[1])
        if k == "break":
            return ".brk"
        if k == "continue":
            return ".cont"
        if k == "var":
            out = "(.define (.var %s) (.lit (%s)))" % (V(x[1]), zero(x[2]))
            self.declare(x[1], x[2])
            return out
        if k == "assign":
            op, lhs, rhs = x[1], x[2], x[3]
            if op in ("+=", "-="):
                (l,) = lhs
                return "(.assign %s %s)" % (self.lhs(l), self.e(("bin", op[0], l, rhs)))
            e = self.e(rhs)
            if op == ":=":
                for l in lhs:
                    if l[1] != "_":
                        self.declare(l[1])
            ls = [self.lhs(l) for l in lhs]
            word = "define" if op == ":=" else "assign"
            return "(.%s%s %s %s)" % (word, "" if len(ls) == 1 else "2", " ".join(ls), e)
        if k == "if":
            self.scopes.append({})
            init = self.s(x[1]) if x[1] else None
            c = self.e(x[2])
            out = "(.ite %s\n%s\n%s)" % (c, self.block(x[3]), self.block(x[4]) if x[4] else ".skip")
            self.scopes.pop()
            return "(.block (.seq %s\n%s))" % (init, out) if init else out
        if k == "for":
            c = self.e(x[1]) if x[1] else "(.lit (.bool true))"
            return "(.loop %s\n%s)" % (c, self.block(x[2]))
        if k == "range":
            e = self.e(x[2])
            self.scopes.append({x[1]: ("name", "?")})
            out = "(.range %s %s\n%s)" % (V(x[1]), e, self.block(x[3]))
            self.scopes.pop()
            return out
        if k == "switch":
            tag = self.e(x[1])
            out = ".skip"
            for c, body in reversed(x[2]):
                out = "(.ite (.eq %s %s)\n%s\n%s)" % (tag, self.e(c), self.block(body), out)
            return out
        die("statement %r" % (x,))

    def decl(self):
        body = self.seq(self.f["body"])
        ps = []
        for p, t in self.f["params"]:
            ps.append("(%s, %s)" % (V(p), "true" if t[0] == "ptr" else "false"))
        return "{ params := [%s],\n    body :=\n%s }" % (", ".join(ps), indent(body))


def indent(body):
    """Lay out by nesting of parentheses."""
    depth, out = 0, []
    for line in body.split("\n"):
        out.append("    " + "  " * min(depth, 20) + line)
        instr, i = False, 0
        while i < len(line):
            c = line[i]
            if instr:
                if c == "\\":
                    i += 1
                elif c == '"':
                    instr = False
            elif c == '"':
                instr = True
            elif c in "([":
                depth += 1
            elif c in ")]":
                depth -= 1
            i += 1
    return "\n".join(out)


SKIP = {("ValidateError", "Error")}
all_fns = [f for key, f in list(funcs.items())] + [f for key, f in methods.items() if key not in SKIP]
order = {p: i for i, (_, p) in enumerate(FILES)}
paths = [p for p, _ in FILES]
all_fns.sort(key=lambda f: (paths.index(f["path"]), f["lines"][0]))

HEAD = "/-\nGenerated by tools/gen_go.py from the sources in /repo. Do not edit.\n%s\n-/\n\n"
GROUPS = [("Common", ["co"]), ("Lexer", ["lx"]), ("Validator", ["va"]), ("Sqlite", ["sq"]), ("Postgres", ["pg"]),
          ("Mysql", ["my"]), ("Converter", ["cv"]), ("Top", ["dp"])]
bodies, per_words = {}, {}
for f in all_fns:
    before = set(words)
    bodies[f["fn"]] = Emit(f).decl()
    for w in set(words) - before:
        per_words[w] = f["prefix"]

IFACE = ["Lex", "Validate", "Convert"]
impl = [(ty, n, methods[(ty, n)]["fn"]) for (ty, n) in methods if n in IFACE]

# names
tys = sorted({k for k in structs if k not in ("ValidateError", "validator")})
with open(OUT + "/Names.lean", "w") as o:
    o.write(HEAD % "The names that occur in the code.")
    o.write("namespace DDL.Src\n\n")

    def enum(name, doc, items, extra=""):
        o.write("/-- %s -/\ninductive %s where\n" % (doc, name))
        line = " "
        for i in items:
            if len(line) + len(i) + 4 > 118:
                o.write(line + "\n")
                line = " "
            line += " | " + i
        o.write(line + "\n  deriving DecidableEq, Repr\n\n")

    enum("Var", "Parameters and local variables.", [lname(x) for x in sorted(used_vars)])
    enum("Fld", "Fields of structs.", [lname(x) for x in sorted(used_flds)])
    enum("Ty", "Struct types.", tys)
    enum("Mth", "Methods called through an interface.", IFACE)
    enum("Fn", "Functions and methods; the first two letters stand for the file.", [f["fn"] for f in all_fns])
    o.write("end DDL.Src\n")

for g, prefixes in GROUPS:
    with open(OUT + "/Src%s.lean" % g, "w") as o:
        o.write("import Verif.Go.Syntax\n")
        o.write(HEAD % ("Syntax trees of " + ", ".join(p for p, q in FILES if q in prefixes) + "."))
        o.write("set_option maxRecDepth 4000\n\nnamespace DDL.Src.Tree\n\n")
        for w in sorted(per_words):
            if per_words[w] in prefixes:
                e = words[w]
                if e[0] != "complit" or e[1] != ("slice", ("name", "string")):
                    die("variable " + w)
                o.write("/-- `%s`. -/\ndef %s : List String := [\n" % (w, w))
                line = " "
                ws = [lit(i[1][1]) for i in e[2]]
                for i, t in enumerate(ws):
                    if len(line) + len(t) + 3 > 118:
                        o.write(line + "\n")
                        line = " "
                    line += " " + t + ("," if i + 1 < len(ws) else "]")
                o.write(line + "\n\n")
        for f in all_fns:
            if f["prefix"] in prefixes:
                o.write("/-- %s:%d-%d `%s`. -/\n" % (f["path"].split("/")[-1], f["lines"][0], f["lines"][1], f["name"]))
                o.write("def %s : Decl :=\n  %s\n\n" % (f["fn"], bodies[f["fn"]]))
        o.write("end DDL.Src.Tree\n")

with open(OUT + "/Source.lean", "w") as o:
    for g, _ in GROUPS:
        o.write("import Verif.Go.Src%s\n" % g)
    o.write(HEAD % "The whole program.")
    o.write("namespace DDL.Src\n\n/-- The declaration of a function. -/\ndef decl : Fn → Decl\n")
    for f in all_fns:
        o.write("  | .%s => Tree.%s\n" % (f["fn"], f["fn"]))
    o.write("\n/-- The method that a call through an interface reaches. -/\ndef impl : Ty → Mth → Option Fn\n")
    for ty, n, fn in sorted(impl):
        o.write("  | .%s, .%s => some .%s\n" % (ty, n, fn))
    o.write("  | _, _ => none\n\nend DDL.Src\n")

print(len(all_fns), "functions")
