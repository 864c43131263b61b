#!/usr/bin/env python3
"""Write the syntax trees of the functions of /repo as Lean terms.

Reads /repo/src/arinc424 as text (Python `ast`; nothing of the repository is imported or run) and writes
lean/Verif/Model/Source*.lean, terms of the types of lean/Verif/Model/Lang.lean. One Python node becomes one
constructor; the exceptions are in the head of Lang.lean. Any node this file does not know is an error.
"""
import ast, os, string, sys

REPO = os.environ.get("SOURCE", "/repo/src/arinc424")
OUT = sys.argv[1] if len(sys.argv) > 1 else os.path.join(
    os.path.dirname(os.path.dirname(os.path.abspath(__file__))), "lean", "Verif", "Model")

BUILTIN = {"print", "len", "int", "float", "str", "exit", "hasattr"}
METHODS = {"strip", "lstrip", "isnumeric", "isalnum", "isalpha", "endswith", "startswith", "write", "getvalue",
           "update", "readlines"}
OTHER = {"add_row": "addRow", "get_string": "getString"}
EXCS = {"ValueError": ".valueError", "IndexError": ".indexError"}


def lit(s):
    assert all(32 <= ord(c) < 127 or c == "\n" for c in s), repr(s)
    return 'py!"%s"' % s.replace("\\", "\\\\").replace('"', '\\"').replace("\n", "\\n")


def seq(xs):
    out = ".nil"
    for x in reversed(xs):
        out = "(.cons %s %s)" % (x, out)
    return out


def const(v):
    if v is None:
        return ".none"
    if isinstance(v, bool):
        return "(.bool %s)" % str(v).lower()
    if isinstance(v, int):
        return "(.int %d)" % v if v >= 0 else "(.int (%d))" % v
    assert isinstance(v, str), v
    return "(.str (%s))" % lit(v)


class Module:
    def __init__(self, file):
        self.file = file
        self.tree = ast.parse(open(os.path.join(REPO, file)).read())
        # def f(): return <constant>
        self.factories = {f.name: f.body[0].value.value for f in self.tree.body
                          if isinstance(f, ast.FunctionDef) and not f.args.args and len(f.body) == 1
                          and isinstance(f.body[0], ast.Return) and isinstance(f.body[0].value, ast.Constant)}
        names = [n.name for n in self.tree.body if isinstance(n, (ast.FunctionDef, ast.ClassDef))]
        names += [n.id for n in ast.walk(self.tree) if isinstance(n, ast.Name) and isinstance(n.ctx, ast.Store)]
        names += [a.arg for n in ast.walk(self.tree) if isinstance(n, ast.arguments) for a in n.args]
        assert not set(names) & (BUILTIN | {"isinstance", "all", "map", "open", "defaultdict", "io", "string", "os",
                                            "json", "colored", "PrettyTable"}), file

    # ------------------------------------------------------------ expressions
    def args(self, es):
        return seq([self.e(x) for x in es])

    def e(self, x):
        return getattr(self, "e_" + type(x).__name__)(x)

    def e_Constant(self, x):
        return "(.const %s)" % const(x.value)

    def e_Name(self, x):
        return "(.name (%s))" % lit(x.id)

    def e_UnaryOp(self, x):
        if isinstance(x.op, ast.Not):
            return "(.not %s)" % self.e(x.operand)
        assert isinstance(x.op, ast.USub) and isinstance(x.operand, ast.Constant)
        return "(.const %s)" % const(-x.operand.value)

    def e_Attribute(self, x):
        if isinstance(x.value, ast.Name) and x.value.id == "decoder":
            return "(.const (.fn (%s)))" % lit(x.attr)
        return "(.attr %s (%s))" % (self.e(x.value), lit(x.attr))

    def e_Subscript(self, x):
        if isinstance(x.slice, ast.Slice):
            assert x.slice.step is None

            def bound(b):
                if b is None:
                    return "none"
                n = ast.literal_eval(b)
                assert isinstance(n, int)
                return "(some %d)" % n if n >= 0 else "(some (%d))" % n
            return "(.slice %s %s %s)" % (self.e(x.value), bound(x.slice.lower), bound(x.slice.upper))
        return "(.sub %s %s)" % (self.e(x.value), self.e(x.slice))

    def e_BinOp(self, x):
        return "(.bin .%s %s %s)" % ({ast.Add: "add", ast.Sub: "sub", ast.Mult: "mul", ast.Div: "div"}[type(x.op)],
                                     self.e(x.left), self.e(x.right))

    def e_Compare(self, x):
        assert len(x.ops) == 1
        op = {ast.Eq: "eq", ast.NotEq: "ne", ast.Gt: "gt", ast.GtE: "ge", ast.Is: "is", ast.In: "in",
              ast.NotIn: "notIn"}[type(x.ops[0])]
        return "(.cmp .%s %s %s)" % (op, self.e(x.left), self.e(x.comparators[0]))

    def e_BoolOp(self, x):
        assert len(x.values) == 2
        return "(.%s %s %s)" % ("and" if isinstance(x.op, ast.And) else "or", self.e(x.values[0]), self.e(x.values[1]))

    def e_IfExp(self, x):
        return "(.cond %s %s %s)" % (self.e(x.test), self.e(x.body), self.e(x.orelse))

    def e_List(self, x):
        es = [self.e(y) for y in x.elts]
        if len(es) > 4:
            return "(.list (.cons %s\n      .nil%s)" % ("\n      (.cons ".join(es), ")" * len(es))
        return "(.list %s)" % seq(es)

    e_Tuple = e_List

    def e_Dict(self, x):
        if not x.keys:
            return "(.const (.dict .none []))"
        assert len(x.keys) == 1
        return "(.pair %s %s)" % (self.e(x.keys[0]), self.e(x.values[0]))

    def e_JoinedStr(self, x):
        parts = []
        for p in x.values:
            if isinstance(p, ast.Constant):
                parts.append(self.e(p))
            else:
                assert p.conversion == -1 and p.format_spec is None
                parts.append("(.fmt .plain %s)" % self.e(p.value))
        return "(.join %s)" % seq(parts)

    def format(self, template, args):
        parts, n = [], 0
        for text, field, spec, conv in string.Formatter().parse(template):
            if text:
                parts.append("(.const %s)" % const(text))
            if field is not None:
                assert field == "" and conv is None
                s = {"": ".plain", ".1f": "(.fixed 1)", ".2f": "(.fixed 2)", "03": ".pad3"}[spec]
                parts.append("(.fmt %s %s)" % (s, self.e(args[n])))
                n += 1
        assert n == len(args)
        return "(.join %s)" % seq(parts)

    def e_Call(self, x):
        f, kw = x.func, [k.arg for k in x.keywords]
        u = ast.unparse(f)
        if kw:
            if u == "PrettyTable" and kw == ["field_names"] and not x.args:
                return "(.prim .prettyTable %s)" % self.args([x.keywords[0].value])
            assert u == "json.dumps" and [ast.unparse(k) for k in x.keywords] == [
                "sort_keys=True", "indent=4", "separators=(',', ': ')"], u
            return "(.prim .dumpsPretty %s)" % self.args(x.args)
        if u == "defaultdict":
            assert len(x.args) == 1
            return "(.const (.dict %s []))" % const(self.factories[x.args[0].id])
        if u == "isinstance":
            return "(.prim %s %s)" % ({"str": ".isStr", "list": ".isList"}[x.args[1].id], self.args(x.args[:1]))
        if u == "all":
            m = x.args[0]
            assert ast.unparse(m.func) == "map" and m.args[0].attr == "__contains__" and len(m.args) == 2
            return "(.prim .allIn %s)" % self.args([m.args[0].value, m.args[1]])
        special = {"io.StringIO": ".stringIO", "string.ascii_uppercase.index": ".upperIndex", "json.dumps": ".dumps",
                   "os.scandir": ".scandir", "os.path.join": ".joinPath", "colored": ".colored"}
        if u in special:
            return "(.prim %s %s)" % (special[u], self.args(x.args))
        if isinstance(f, ast.Name):
            if f.id in BUILTIN:
                return "(.prim .%s %s)" % (f.id, self.args(x.args))
            return "(.call (%s) %s)" % (lit(f.id), self.args(x.args))
        assert isinstance(f, ast.Attribute), u
        if f.attr == "format":
            assert isinstance(f.value, ast.Constant)
            return self.format(f.value.value, x.args)
        if f.attr in METHODS or f.attr in OTHER:
            return "(.method %s .%s %s)" % (self.e(f.value), OTHER.get(f.attr, f.attr), self.args(x.args))
        return "(.invoke %s (%s) %s)" % (self.e(f.value), lit(f.attr), self.args(x.args))

    # ------------------------------------------------------------ statements
    def block(self, ss, ind):
        ss = [s for s in ss if not (isinstance(s, ast.Expr) and isinstance(s.value, ast.Constant))]  # docstrings
        if not ss:
            return ".pass"
        if len(ss) == 1:
            return self.s(ss[0], ind)
        return "(.seq %s\n%s%s)" % (self.s(ss[0], ind), ind, self.block(ss[1:], ind))

    def s(self, x, ind):
        return getattr(self, "s_" + type(x).__name__)(x, ind)

    def s_Pass(self, x, ind):
        return ".pass"

    def s_Continue(self, x, ind):
        return ".continue"

    def s_Return(self, x, ind):
        return "(.ret %s)" % (self.e(x.value) if x.value is not None else "(.const .none)")

    def s_Raise(self, x, ind):
        assert x.cause is None and ast.unparse(x.exc.func) == "ValueError" and not x.exc.keywords
        return "(.raise %s)" % self.args(x.exc.args)

    def s_Assign(self, x, ind):
        assert len(x.targets) == 1
        t = x.targets[0]
        if isinstance(t, ast.Name):
            return "(.assign (%s) %s)" % (lit(t.id), self.e(x.value))
        assert isinstance(t.value, ast.Name)
        if isinstance(t, ast.Attribute):
            if ast.unparse(t) == "table.align":  # how PrettyTable aligns: part of Model/Table.lean
                assert x.value.value == "l"
                return ".pass"
            return "(.setAttr (%s) (%s) %s)" % (lit(t.value.id), lit(t.attr), self.e(x.value))
        assert isinstance(t, ast.Subscript)
        return "(.setItem (%s) %s %s)" % (lit(t.value.id), self.e(t.slice), self.e(x.value))

    def s_AugAssign(self, x, ind):
        assert isinstance(x.op, ast.Add)
        return "(.aug (%s) %s)" % (lit(x.target.id), self.e(x.value))

    def s_Expr(self, x, ind):
        return "(.expr %s)" % self.e(x.value)

    def s_If(self, x, ind):
        i = ind + "  "
        return "(.ite %s\n%s%s\n%s%s)" % (self.e(x.test), i, self.block(x.body, i), i, self.block(x.orelse, i))

    def s_Match(self, x, ind):
        i = ind + "  "
        out = ".pass"
        for n, c in reversed(list(enumerate(x.cases))):
            assert c.guard is None
            if isinstance(c.pattern, ast.MatchAs):
                assert c.pattern.pattern is None and c.pattern.name is None and n == len(x.cases) - 1
                out = self.block(c.body, i)
            else:
                v = c.pattern.value
                assert isinstance(v, ast.Constant) and isinstance(v.value, (str, int))
                out = "(.case %s %s\n%s%s)" % (const(v.value), self.block(c.body, i + "  "), i, out)
        return "(.matchOn %s\n%s%s)" % (self.e(x.subject), i, out)

    def s_Try(self, x, ind):
        assert len(x.handlers) == 1 and not x.orelse and not x.finalbody
        h = x.handlers[0]
        es = [EXCS[t.id] for t in h.type.elts]
        i = ind + "  "
        return "(.tryExcept %s [%s] (%s)\n%s%s)" % (self.block(x.body, i), ", ".join(es), lit(h.name), i,
                                                    self.block(h.body, i))

    def s_For(self, x, ind):
        assert not x.orelse
        i = ind + "  "
        return "(.forIn (%s) %s\n%s%s)" % (lit(x.target.id), self.e(x.iter), i, self.block(x.body, i))

    def s_With(self, x, ind):
        c, = x.items
        assert ast.unparse(c.context_expr.func) == "open" and len(c.context_expr.args) == 1
        assert not c.context_expr.keywords
        i = ind + "  "
        return "(.withOpen %s (%s)\n%s%s)" % (self.e(c.context_expr.args[0]), lit(c.optional_vars.id), i,
                                              self.block(x.body, i))

    # ------------------------------------------------------------ functions
    def alone(self, f):
        """Objects are values in Lang.lean. What is changed in a function has one name only: `self`, or a variable that
        the function has made itself, which is never given a second name, kept in another object or returned."""
        up = {id(c): n for n in ast.walk(f) for c in ast.iter_child_nodes(n)}
        changed = set()
        for n in ast.walk(f):
            if isinstance(n, ast.Name) and isinstance(n.ctx, ast.Load):
                p = up[id(n)]
                if isinstance(p, ast.Attribute) and isinstance(p.ctx, ast.Store):
                    assert n.id == "self" or ast.unparse(p) == "table.align", ast.unparse(p)
                if isinstance(p, ast.Subscript) and p.value is n and isinstance(p.ctx, ast.Store):
                    changed.add(n.id)
                if isinstance(p, ast.Attribute) and p.attr in ("write", "update", "add_row"):
                    changed.add(n.id)
        for x in changed:
            made = [n.value for n in ast.walk(f) if isinstance(n, ast.Assign) and any(isinstance(t, ast.Name) and t.id == x for t in n.targets)]
            assert made and all(ast.unparse(v).startswith(("defaultdict(", "{}", "io.StringIO(", "PrettyTable(")) for v in made), x
            for n in ast.walk(f):
                if isinstance(n, ast.Name) and n.id == x and isinstance(n.ctx, ast.Load):
                    p = up[id(n)]
                    assert isinstance(p, ast.Compare) or (isinstance(p, (ast.Subscript, ast.Attribute)) and p.value is n) or (
                        isinstance(p, ast.Call) and ast.unparse(p.func) in ("print", "json.dumps")), (x, ast.unparse(p))

    def order(self, f):
        """Lang.lean takes the value of `x` in `x.m(args)` and `x[k]` before it evaluates `args` and `k`: these must not
        change the object that is known as `x`."""
        params = {a.arg for a in f.args.args} - {"self"}
        for n in ast.walk(f):
            if isinstance(n, ast.Call) and isinstance(n.func, ast.Attribute) and isinstance(n.func.value, ast.Name):
                x, inner = n.func.value.id, n.args + [k.value for k in n.keywords]
            elif isinstance(n, ast.Subscript) and isinstance(n.value, ast.Name):
                x, inner = n.value.id, [n.slice]
            else:
                continue
            for m in (m for i in inner for m in ast.walk(i) if x not in params):
                assert not (isinstance(m, ast.Subscript) and isinstance(m.value, ast.Name) and m.value.id == x), ast.unparse(n)
                assert not (isinstance(m, ast.Call) and isinstance(m.func, ast.Attribute) and isinstance(m.func.value, ast.Name)
                            and m.func.value.id == x), ast.unparse(n)

    def func(self, f):
        self.alone(f)
        self.order(f)
        a = f.args
        assert not (a.posonlyargs or a.kwonlyargs or a.vararg or a.kwarg or f.decorator_list)
        ps = [p.arg for p in a.args]
        ds = ["(%s, %s)" % (lit(p), const(d.value)) for p, d in zip(ps[len(ps) - len(a.defaults):], a.defaults)]
        return "⟨[%s], [%s],\n  %s⟩" % (", ".join(map(lit, ps)), ", ".join(ds), self.block(f.body, "  "))


HEAD = '''import Verif.Model.%s
/-!
# %s (GENERATED by tools/source.py)

The syntax trees of %s.
-/
namespace Arinc.Lang.Src
open Py

'''


def decoder():
    m = Module("decoder.py")
    o = HEAD % ("Lang", "Source of decoder.py", "the functions of /repo/src/arinc424/decoder.py")
    fs = [f for f in m.tree.body if isinstance(f, ast.FunctionDef) and f.name.startswith("field_")]
    assert [f.name for f in m.tree.body if isinstance(f, ast.FunctionDef) and not f.name.startswith("field_")] == ["def_val"]
    plain = "⟨[py!\"value\", py!\"record\"], [],\n  (.ret (.name (py!\"value\")))⟩"
    special, same = [], []
    for f in fs:
        t = m.func(f)
        if t == plain:
            same.append(f)
        else:
            special.append(f)
            o += "/-- decoder.py:%d-%d -/\ndef %s : Func := %s\n\n" % (f.lineno, f.end_lineno, f.name, t)
    o += "/-- the body of decoder.py:%d-%d and the others that are the same -/\ndef same : Func := %s\n\n" % (
        same[0].lineno, same[0].end_lineno, plain)
    o += "/-- the functions of decoder.py -/\ndef decoderFuncs : List (Str × Func) := [\n"
    o += ",\n".join("  (%s, %s)" % (lit(f.name), f.name if f in special else "same") for f in fs)
    o += "]\n\n"
    # the statements of the module itself
    body = [s for s in m.tree.body if isinstance(s, ast.Assign)]
    o += "/-- decoder.py:%d-%d, the statements of the module -/\ndef decoderModule : Stmt :=\n  %s\n\n" % (
        body[0].lineno, body[-1].lineno, m.block(body, "  "))
    cls, = [c for c in m.tree.body if isinstance(c, ast.ClassDef)]
    assert all(isinstance(b, ast.FunctionDef) for b in cls.body)
    for b in cls.body:
        o += "/-- decoder.py:%d-%d -/\ndef %s_%s : Func := %s\n\n" % (b.lineno, b.end_lineno, cls.name, b.name.strip("_"), m.func(b))
    o += "/-- decoder.py:%d-%d, class `%s` -/\ndef %s : Class := ⟨[], [%s]⟩\n\n" % (
        cls.lineno, cls.end_lineno, cls.name, cls.name,
        ", ".join("(%s, %s_%s)" % (lit(b.name), cls.name, b.name.strip("_")) for b in cls.body))
    rest = [s for s in m.tree.body if not isinstance(s, (ast.FunctionDef, ast.ClassDef, ast.Assign, ast.Import, ast.ImportFrom))]
    assert not rest
    o += "/-- the functions and the class of decoder.py -/\ndef decoder : Prog := ⟨decoderFuncs, [(py!\"Field\", Field)]⟩\n\n"
    o += "end Arinc.Lang.Src\n"
    open(os.path.join(OUT, "Source.lean"), "w").write(o)


def value(x):
    """a class attribute: a constant or a list of constants"""
    if isinstance(x, ast.List):
        return "(.list [%s])" % ", ".join(value(y) for y in x.elts)
    return const(ast.literal_eval(x))


def klass(m, c):
    """the methods of a class, then the class"""
    where = os.path.basename(m.file) if m.file.startswith("definitions") else m.file
    where = ("definitions/" if m.file.startswith("definitions") else "") + where
    assert not (c.bases or c.keywords or c.decorator_list)
    o, attrs, methods = "", [], []
    for b in c.body:
        if isinstance(b, ast.Assign):
            t, = b.targets
            attrs.append("(%s, %s)" % (lit(t.id), value(b.value)))
        elif isinstance(b, ast.FunctionDef):
            name = "%s_%s" % (c.name, b.name.strip("_"))
            o += "/-- %s:%d-%d -/\ndef %s : Func := %s\n\n" % (where, b.lineno, b.end_lineno, name, m.func(b))
            methods.append("(%s, %s)" % (lit(b.name), name))
        else:
            assert isinstance(b, ast.Expr) and isinstance(b.value, ast.Constant)
    o += "/-- %s:%d-%d, class `%s` -/\ndef %s : Class :=\n  ⟨[%s],\n   [%s]⟩\n\n" % (
        where, c.lineno, c.end_lineno, c.name, c.name, ", ".join(attrs), ",\n    ".join(methods))
    return o


def definitions():
    """the classes that record.py imports"""
    rec = ast.parse(open(os.path.join(REPO, "record.py")).read())
    names = []
    o = HEAD % ("Lang", "Source of definitions/*.py", "the classes of /repo/src/arinc424/definitions that record.py imports")
    for imp in rec.body:
        if isinstance(imp, ast.ImportFrom) and imp.module.startswith("arinc424.definitions."):
            name = imp.module.split(".")[-1]
            assert [(a.name, a.asname) for a in imp.names] == [(name, None)]
            m = Module("definitions/%s.py" % name)
            # what a name of the module means
            assert {ast.unparse(s) for s in m.tree.body if isinstance(s, (ast.Import, ast.ImportFrom))} == {
                "from arinc424.decoder import Field", "import arinc424.decoder as decoder"}
            assert all(isinstance(s, (ast.Import, ast.ImportFrom, ast.ClassDef)) for s in m.tree.body)
            c, = [c for c in m.tree.body if isinstance(c, ast.ClassDef) and c.name == name]
            o += klass(m, c)
            names.append(name)
    o += "/-- the classes of definitions/*.py -/\ndef definitionClasses : List (Str × Class) := [\n"
    o += ",\n".join("  (%s, %s)" % (lit(n), n) for n in names)
    o += "]\n\nend Arinc.Lang.Src\n"
    open(os.path.join(OUT, "SourceDefs.lean"), "w").write(o)


def library():
    m = Module("record.py")
    o = HEAD % ("Source", "Source of record.py and __init__.py", "/repo/src/arinc424/record.py and /repo/src/arinc424/__init__.py")
    o = o.replace("import Verif.Model.Source\n", "import Verif.Model.Source\nimport Verif.Model.SourceDefs\n")
    body = [s for s in m.tree.body if isinstance(s, ast.Assign)]
    o += "/-- record.py:%d-%d, the statements of the module -/\ndef recordModule : Stmt :=\n  %s\n\n" % (
        body[0].lineno, body[-1].lineno, m.block(body, "  "))
    c, = [c for c in m.tree.body if isinstance(c, ast.ClassDef)]
    o += klass(m, c)
    rest = [s for s in m.tree.body if s not in body and s is not c and not isinstance(s, (ast.Import, ast.ImportFrom))]
    assert [s.name for s in rest] == ["def_val"]
    m = Module("__init__.py")
    assert all(isinstance(s, (ast.Import, ast.ImportFrom, ast.FunctionDef)) for s in m.tree.body)
    fs = [f for f in m.tree.body if isinstance(f, ast.FunctionDef)]
    for f in fs:
        o += "/-- __init__.py:%d-%d -/\ndef %s : Func := %s\n\n" % (f.lineno, f.end_lineno, f.name, m.func(f))
    o += "/-- the library -/\ndef library : Prog :=\n  ⟨[%s] ++ decoderFuncs,\n   (py!\"Field\", Field) :: (py!\"Record\", Record) :: definitionClasses⟩\n\n" % (
        ", ".join("(%s, %s)" % (lit(f.name), f.name) for f in fs))
    o += "end Arinc.Lang.Src\n"
    open(os.path.join(OUT, "SourceLibrary.lean"), "w").write(o)


if __name__ == "__main__":
    decoder()
    definitions()
    library()
