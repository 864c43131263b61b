#!/usr/bin/env python3
"""Transcribe the declarative parts of /repo into Lean.

Reads /repo/src/arinc424 as text (Python `ast`; nothing of the repository is
imported or run) and writes
  lean/Verif/Model/Layouts.lean      field lists of definitions/*.py
  lean/Verif/Model/Definitions.lean  class attributes, read methods, registry
  lean/Verif/Model/Tables.lean       literal tables of decoder.py
  lean/Verif/Py/UnicodeTables.lean   character tables of the running CPython
Any AST shape it does not know is an error.
"""
import ast, glob, os, sys, unicodedata

REPO = "/repo/src/arinc424"
OUT = os.path.join(os.path.dirname(os.path.dirname(os.path.abspath(__file__))), "lean", "Verif")


def lit(s):
    assert all(32 <= ord(c) < 127 for c in s), repr(s)
    return 'py!"%s"' % s.replace("\\", "\\\\").replace('"', '\\"')


# ---------------------------------------------------------------- decoder.py
dec_src = open(REPO + "/decoder.py").read()
dec = ast.parse(dec_src)
funcs = {f.name: f for f in dec.body if isinstance(f, ast.FunctionDef)}


def is_identity(f):
    b = f.body
    return (len(b) == 1 and isinstance(b[0], ast.Return)
            and isinstance(b[0].value, ast.Name) and b[0].value.id == f.args.args[0].arg == "value")


IDENT = sorted(int(n[6:]) for n, f in funcs.items() if n.startswith("field_") and is_identity(f))
SPECIAL = sorted(int(n[6:]) for n, f in funcs.items() if n.startswith("field_") and not is_identity(f))


def decfn(name):
    assert name in funcs, name
    n = int(name[6:])
    return ".ident %d" % n if n in IDENT else ".f%03d" % n


# ---------------------------------------------------------------- layouts
def idx(e, var):
    """slice expression -> Lean Slice"""
    if isinstance(e, ast.Subscript):
        assert isinstance(e.value, ast.Name) and e.value.id == var, ast.dump(e)
        s = e.slice
        if isinstance(s, ast.Slice):
            assert s.step is None
            lo, hi = s.lower.value, s.upper.value
            assert 0 <= lo and 0 <= hi
            return ".range %d %d" % (lo, hi)
        assert isinstance(s, ast.Constant) and isinstance(s.value, int) and s.value >= 0
        return ".at %d" % s.value
    if isinstance(e, ast.BinOp) and isinstance(e.op, ast.Add):
        def one(x):
            assert isinstance(x, ast.Subscript) and x.value.id == var and isinstance(x.slice, ast.Constant)
            return x.slice.value
        return ".pair %d %d" % (one(e.left), one(e.right))
    if isinstance(e, ast.IfExp):
        assert ast.unparse(e.test) == "self.enroute is True", ast.unparse(e)
        return "if enroute then %s else %s" % (idx(e.body, var), idx(e.orelse, var))
    raise SystemExit("slice? " + ast.dump(e))


class Layout:
    pass


def parse_layout(fn, cls, m):
    assert len(m.body) == 1 and isinstance(m.body[0], ast.Return) and isinstance(m.body[0].value, ast.List)
    var = m.args.args[1].arg
    rows, params = [], ""
    for e in m.body[0].value.elts:
        assert isinstance(e, ast.Call) and isinstance(e.func, ast.Name) and e.func.id == "Field" and len(e.args) == 3 and not e.keywords
        n, s, d = e.args
        if isinstance(n, ast.Constant):
            nm = lit(n.value)
        else:
            assert ast.unparse(n) == "self.id_name", ast.unparse(n)
            nm, params = "id_name", " (id_name : Str)"
        assert isinstance(d, ast.Attribute) and d.value.id == "decoder"
        sl = idx(s, var)
        if sl.startswith("if"):
            params = " (enroute : Bool)"
        rows.append((nm, sl, decfn(d.attr), e.lineno))
    assert rows
    L = Layout()
    L.lean = "%s.%s" % (cls.name, m.name)
    L.params = params
    L.rows = rows
    L.cite = "definitions/%s:%d-%d" % (fn, m.lineno, m.end_lineno)
    return L


ATTRS = ("cont_idx", "app_idx", "continuations", "name")
layouts, definitions = [], {}


def opt(x):
    return "none" if x is None else "some " + x


for path in sorted(glob.glob(REPO + "/definitions/*.py")):
    fn = os.path.basename(path)
    mod = ast.parse(open(path).read())
    for cls in mod.body:
        if isinstance(cls, (ast.Import, ast.ImportFrom)):
            continue
        assert isinstance(cls, ast.ClassDef) and not cls.bases
        if cls.name != fn[:-3]:
            # AirportGate.py also contains an unused second class CompanyRoute
            assert (fn, cls.name) == ("AirportGate.py", "CompanyRoute")
            continue
        attrs, methods, ls = {}, {}, {}
        for m in cls.body:
            if isinstance(m, ast.Assign):
                k = m.targets[0].id
                assert k in ATTRS
                attrs[k] = (ast.literal_eval(m.value), m.lineno)
            else:
                assert isinstance(m, ast.FunctionDef)
                methods[m.name] = m
        for name, m in methods.items():
            if name in ("read", "application_type", "__init__") and not (
                    name == "read" and isinstance(m.body[0], ast.Return) and isinstance(m.body[0].value, ast.List)):
                continue
            L = parse_layout(fn, cls, m)
            ls[name] = L
            layouts.append(L)
        # constructor
        arg = None
        if "__init__" in methods:
            src = ast.unparse(methods["__init__"])
            if "id_name" in src:
                arg = "heliport"
                i = methods["__init__"]
                assert ast.unparse(i.body[0]) == "self.heliport = heliport"
                iff = i.body[1]
                assert ast.unparse(iff.test) == "self.heliport is False" and len(i.body) == 2
                t = ast.literal_eval(iff.body[0].value)
                f = ast.literal_eval(iff.orelse[0].value)
                idn = (t, f)
                default = [ast.literal_eval(x) for x in i.args.defaults]
            else:
                arg = "enroute"
                assert len(methods["__init__"].body) == 1 and ast.unparse(methods["__init__"].body[0]) == "self.enroute = enroute"
                default = []
        else:
            default = []
        if arg:
            assert all(L.params for L in ls.values())

        def call(e, var):
            assert isinstance(e, ast.Call) and e.func.value.id == "self" and len(e.args) == 1 and e.args[0].id == var
            L = ls[e.func.attr]
            if L.params:
                if arg == "heliport":
                    return "(%s (if heliport = false then %s else %s))" % (L.lean, lit(idn[0]), lit(idn[1]))
                return "(%s enroute)" % L.lean
            return L.lean

        def branch(m, sel):
            cases, other = [], None
            for c in m.cases:
                assert c.guard is None and len(c.body) == 1
                b = c.body[0]
                if isinstance(c.pattern, ast.MatchAs) and c.pattern.name is None and c.pattern.pattern is None:
                    if isinstance(b, ast.Raise):
                        assert b.exc.func.id == "ValueError"
                        other = ".raise"
                    elif isinstance(b.value, ast.List):
                        assert b.value.elts == []
                        other = ".empty"
                    else:
                        other = "(.layout %s)" % call(b.value, "line")
                else:
                    assert other is None
                    cases.append("(%s, %s)" % (lit(c.pattern.value.value), call(b.value, "line")))
            assert other is not None
            return ".onApp (%s)\n      [%s]\n      %s" % (sel, ",\n       ".join(cases), other)

        app = None
        if "application_type" in methods:
            r = methods["application_type"].body
            assert len(r) == 1
            u = ast.unparse(r[0].value)
            if u == "line[self.app_idx]":
                app = ".at %d" % attrs["app_idx"][0]
            else:
                assert u == "line[15:17]", u
                app = ".range 15 17"
        rd = methods["read"]
        b = rd.body
        if isinstance(b[0], ast.Return):
            if isinstance(b[0].value, ast.List):
                pb = cb = ".always %s.read" % cls.name
            else:
                pb = cb = ".always %s" % call(b[0].value, "line")
        elif isinstance(b[0], ast.If):
            assert ast.unparse(b[0].test) == "primary" and not b[0].orelse and len(b[0].body) == 1
            pb = ".always %s" % call(b[0].body[0].value, "line")
            assert ast.unparse(b[1]) == "application = line[self.app_idx]"
            assert ast.unparse(b[2].subject) == "application" and len(b) == 3
            cb = branch(b[2], ".at %d" % attrs["app_idx"][0])
        else:
            assert ast.unparse(b[0]) == "application = self.application_type(line)"
            assert ast.unparse(b[1].test) == "primary" and len(b) == 2
            assert ast.unparse(b[1].body[0].subject) == "application"
            assert ast.unparse(b[1].orelse[0].subject) == "application"
            pb = branch(b[1].body[0], app)
            cb = branch(b[1].orelse[0], app)
        A = lambda k: attrs[k][0] if k in attrs else None
        s = "/-- definitions/%s:%d-%d, class `%s` (attributes and `read`, lines %d-%d) -/\n" % (
            fn, cls.lineno, cls.end_lineno, cls.name, rd.lineno, rd.end_lineno)
        s += "def %s.definition%s : Definition where\n" % (cls.name, " (%s : Bool)" % arg if arg else "")
        s += "  cls := %s\n" % lit(cls.name)
        s += "  name := %s\n" % opt(A("name") is not None and "(%s)" % lit(A("name")) or None)
        s += "  contIdx := %s\n" % opt(None if A("cont_idx") is None else str(A("cont_idx")))
        s += "  appIdx := %s\n" % opt(None if A("app_idx") is None else str(A("app_idx")))
        s += "  continuations := %s\n" % opt(A("continuations") and "[%s]" % ", ".join(map(lit, A("continuations"))) or None)
        s += "  appType := %s\n" % opt(app and "(%s)" % app)
        s += "  onPrimary := %s\n  onCont := %s\n" % (pb, cb)
        definitions[cls.name] = (s, arg, default)

with open(OUT + "/Model/Layouts.lean", "w") as f:
    f.write("import Verif.Model.Types\n/-!\n# Field layouts (GENERATED by tools/gen.py from /repo/src/arinc424/definitions/*.py)\n\n"
            "One definition per `read_*` method, one row per `Field(...)`; the comment after a\n"
            "row is its source line.\n-/\nnamespace Arinc\nopen Py\n\n")
    for L in layouts:
        f.write("/-- %s `%s` -/\ndef %s%s : Layout := [\n" % (L.cite, L.lean, L.lean, L.params))
        for i, (n, s, d, ln) in enumerate(L.rows):
            f.write("  ⟨%s, %s, %s⟩%s  -- L%d\n" % (n, s, d, "," if i + 1 < len(L.rows) else "", ln))
        f.write("]\n\n")
    f.write("end Arinc\n")

# ---------------------------------------------------------------- record.py registry
rec = ast.parse(open(REPO + "/record.py").read())
reg = []
for st in rec.body:
    if isinstance(st, ast.Assign) and isinstance(st.targets[0], ast.Subscript):
        t = st.targets[0]
        assert t.value.id == "records"
        cls, args = st.value.func.id, [ast.literal_eval(a) for a in st.value.args]
        s, arg, default = definitions[cls]
        if arg and not args:
            args = default
        assert bool(arg) == bool(args)
        e = "%s.definition%s" % (cls, "".join(" " + str(a).lower() for a in args))
        reg.append((t.slice.value, e, st.lineno))
assert len({k for k, _, _ in reg}) == len(reg)
with open(OUT + "/Model/Definitions.lean", "w") as f:
    f.write("import Verif.Model.Layouts\n/-!\n# Record definitions and registry (GENERATED by tools/gen.py)\n-/\nnamespace Arinc\nopen Py\n\n")
    for s, _, _ in definitions.values():
        f.write(s + "\n")
    f.write("/-- record.py:%d-%d, the registry `records` -/\ndef registry : List (Str × Definition) := [\n" % (reg[0][2] - 1, reg[-1][2]))
    for i, (k, e, ln) in enumerate(reg):
        f.write("  (%s, %s)%s  -- L%d\n" % (lit(k), e, "," if i + 1 < len(reg) else "", ln))
    f.write("]\n\nend Arinc\n")

# ---------------------------------------------------------------- decoder.py tables
T = []


def dict_table(name, stmts, var, cite):
    rows = []
    for st in stmts:
        assert isinstance(st, ast.Assign) and isinstance(st.targets[0], ast.Subscript) and st.targets[0].value.id == var, ast.dump(st)
        rows.append((st.targets[0].slice.value, st.value.value, st.lineno))
    assert len({k for k, _, _ in rows}) == len(rows)
    T.append((name, cite, rows))


def match_table(name, m, cite, skip=()):
    """cases with a constant result: return 'x' / s.write('x') / s += 'x'"""
    rows = []
    for c in m.cases:
        if isinstance(c.pattern, ast.MatchAs):
            continue
        k = c.pattern.value.value
        if k in skip:
            continue
        b = c.body[0]
        if isinstance(b, ast.Return):
            v = b.value.value
        elif isinstance(b, ast.Expr):
            assert ast.unparse(b.value.func) == "s.write"
            v = b.value.args[0].value
            assert v.endswith("\n")
            v = v[:-1]
        else:
            assert isinstance(b, ast.AugAssign)
            v = b.value.value
        rows.append((k, v, b.lineno))
    T.append((name, cite, rows))


def cite(f, what=""):
    return "decoder.py:%d-%d%s" % (f.lineno, f.end_lineno, what)


def matches(f):
    return [s for s in f.body if isinstance(s, ast.Match)]


def dict_fn(n, var):
    f = funcs["field_%03d" % n]
    ass = [s for s in f.body if isinstance(s, ast.Assign) and isinstance(s.targets[0], ast.Subscript)]
    dict_table("t%03d" % n, ass, var, cite(f, " `field_%03d`" % n))


f = funcs["field_003"]; match_table("t003", matches(f)[0], cite(f, " `field_003`"))
dict_fn(4, "sections")
f = funcs["field_007"]
node = f.body[1]
tests = []
while True:
    tests.append(ast.unparse(node.test))
    dict_table("t007_" + str(len(tests)), node.body, "d", "decoder.py:%d-%d `field_007`, branch `%s`" % (node.lineno, node.body[-1].end_lineno, ast.unparse(node.test)))
    if not node.orelse:
        break
    assert len(node.orelse) == 1
    node = node.orelse[0]
assert tests == ["record.ident == 'ER'", "record.ident == 'ET'", "record.ident == 'PD' or record.ident == 'HD'",
                 "record.ident == 'PE' or record.ident == 'HE'", "record.ident == 'PF' or record.ident == 'HF'"], tests
f = funcs["field_017"]
for i, m in enumerate(matches(f)):
    assert ast.unparse(m.subject) == "value[%d]" % i
    match_table("t017_%d" % i, m, "decoder.py:%d-%d `field_017`, `match value[%d]`; each text is followed by a newline" % (m.lineno, m.end_lineno, i))
legs = [s for s in dec.body if isinstance(s, ast.Assign) and isinstance(s.targets[0], ast.Subscript)]
dict_table("legTypeDesc", legs, "LegTypeDesc", "decoder.py:%d-%d, module-level `LegTypeDesc` after import" % (legs[0].lineno, legs[-1].lineno))
f = funcs["field_042"]; ms = matches(f)
match_table("t042_0", ms[0], cite(ms[0], " `field_042`, `match value[0]` (without the case 'N')"), skip=("N",))
match_table("t042_1", ms[1], cite(ms[1], " `field_042`, `match value[1]`"))
f = funcs["field_091"]; match_table("t091", matches(f)[0], cite(f, " `field_091`"))
dict_fn(101, "d"); dict_fn(104, "d"); dict_fn(106, "sections")
dict_fn(181, "d")
f = funcs["field_196"]; ms = matches(f)
match_table("t196_0", ms[0], cite(ms[0], " `field_196`, `match value[0]`"))
match_table("t196_1", ms[1], cite(ms[1], " `field_196`, `match value[1]`"))
dict_fn(198, "d"); dict_fn(199, "d")

with open(OUT + "/Model/Tables.lean", "w") as f:
    f.write("import Verif.Model.Types\n/-!\n# Look-up tables of decoder.py (GENERATED by tools/gen.py)\n-/\nnamespace Arinc\nopen Py\n\n")
    f.write("/-- the functions `field_NNN` of decoder.py whose body is `return value` -/\ndef identityFns : List Nat :=\n  [%s]\n\n" %
            ",\n   ".join(", ".join(map(str, IDENT[i:i + 18])) for i in range(0, len(IDENT), 18)))
    for name, c, rows in T:
        f.write("/-- %s -/\ndef %s : List (Str × Str) := [\n" % (c, name))
        for i, (k, v, ln) in enumerate(rows):
            f.write("  (%s, %s)%s  -- L%d\n" % (lit(k), lit(v), "," if i + 1 < len(rows) else "", ln))
        f.write("]\n\n")
    f.write("end Arinc\n")


# ---------------------------------------------------------------- Unicode tables
def ranges(p):
    out, start = [], None
    for c in range(0x110001):
        ok = c < 0x110000 and p(chr(c))
        if ok and start is None:
            start = c
        if not ok and start is not None:
            out.append((start, c - 1)); start = None
    return out


def rl(r):
    return "[%s]" % ",\n   ".join(", ".join("(%d, %d)" % x for x in r[i:i + 8]) for i in range(0, len(r), 8))


alpha, num = ranges(str.isalpha), ranges(str.isnumeric)
dcm = []
for lo, hi in ranges(str.isdecimal):
    assert (hi - lo + 1) % 10 == 0
    for a in range(lo, hi, 10):
        assert [unicodedata.decimal(chr(a + i)) for i in range(10)] == list(range(10))
        dcm.append((a, a + 9))
for c in range(0x110000):
    x = chr(c)
    assert x.isalnum() == (x.isalpha() or x.isnumeric())
    assert not x.isdigit() or x.isnumeric()
sp = [c for c in range(0x110000) if chr(c).isspace()]
with open(OUT + "/Py/UnicodeTables.lean", "w") as f:
    f.write("import Verif.Py.Unicode\n/-!\n# Character tables of CPython %d.%d, Unicode %s (GENERATED by tools/gen.py)\n-/\nnamespace Py\nnamespace Tables\n\n" % (
        sys.version_info[0], sys.version_info[1], unicodedata.unidata_version))
    f.write("/-- ranges of `isalpha` -/\ndef alphaRanges : List (Nat × Nat) :=\n  %s\n\n" % rl(alpha))
    f.write("/-- ranges of `isnumeric` -/\ndef numericRanges : List (Nat × Nat) :=\n  %s\n\n" % rl(num))
    f.write("/-- ranges of `isdecimal`, each holding the digits 0 to 9 in order -/\ndef decimalRanges : List (Nat × Nat) :=\n  %s\n\n" % rl(dcm))
    f.write("/-- all white space characters -/\ndef spaces : List Nat :=\n  [%s]\n\n" % ", ".join(map(str, sp)))
    f.write("end Tables\nend Py\n")
print("identity", len(IDENT), "special", SPECIAL)
print("layouts", len(layouts), "defs", len(definitions), "registry", len(reg))
