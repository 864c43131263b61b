#!/usr/bin/env python3
"""Checks tools/source.py: Lean writes the syntax trees of Model/Source*.lean as Python text (unparse_driver.txt, which knows
nothing of tools/source.py), Python parses that text, and the result is compared with the parsed text of the library, function
by function. Before that both are brought into one form: without docstrings, annotations, `pass` and the alignment of the table; tuples as
lists; `'...'.format(...)` as an f-string; `defaultdict(f)` with the value that `f` returns. Nothing of the library is run.
"""
import ast, os, string, subprocess, sys
ROOT = os.path.dirname(os.path.dirname(os.path.dirname(os.path.abspath(__file__))))
REPO = os.environ.get('SOURCE', '/repo/src/arinc424')


class Form(ast.NodeTransformer):
    def __init__(self, factories):
        self.factories = factories

    def body(self, ss):
        ss = [s for s in ss if not isinstance(s, ast.Pass) and not (isinstance(s, ast.Expr) and isinstance(s.value, ast.Constant))
              and not (isinstance(s, ast.Assign) and ast.unparse(s) == "table.align = 'l'")]
        return ss or [ast.Pass()]

    def generic_visit(self, n):
        super().generic_visit(n)
        if isinstance(n, ast.FunctionDef):
            n.returns = None
        if isinstance(n, ast.arg):
            n.annotation = None
        if isinstance(getattr(n, 'body', None), list):
            n.body = self.body(n.body)
        if isinstance(getattr(n, 'orelse', None), list):
            n.orelse = [s for s in n.orelse if not isinstance(s, ast.Pass)]
        return n

    def visit_Tuple(self, n):
        self.generic_visit(n)
        return ast.List(elts=n.elts, ctx=n.ctx)

    def visit_UnaryOp(self, n):
        self.generic_visit(n)
        if isinstance(n.op, ast.USub) and isinstance(n.operand, ast.Constant):
            return ast.Constant(value=-n.operand.value)
        return n

    def visit_Return(self, n):
        self.generic_visit(n)
        if n.value is None:
            n.value = ast.Constant(value=None)
        return n

    def visit_Match(self, n):
        self.generic_visit(n)
        if isinstance(n.cases[-1].pattern, ast.MatchAs) and isinstance(n.cases[-1].body[0], ast.Pass):
            n.cases.pop()
        return n

    def merged(self, parts):
        out = []
        for p in parts:
            if out and isinstance(p, ast.Constant) and isinstance(out[-1], ast.Constant):
                out[-1] = ast.Constant(value=out[-1].value + p.value)
            else:
                out.append(p)
        return ast.JoinedStr(values=out)

    def visit_Call(self, n):
        self.generic_visit(n)
        if isinstance(n.func, ast.Attribute) and n.func.attr == 'format' and isinstance(n.func.value, ast.Constant):
            parts, k = [], 0
            for text, field, spec, conv in string.Formatter().parse(n.func.value.value):
                if text:
                    parts.append(ast.Constant(value=text))
                if field is not None:
                    assert field == '' and conv is None
                    parts.append(ast.FormattedValue(value=n.args[k], conversion=-1, format_spec=spec or None))
                    k += 1
            assert k == len(n.args)
            return self.merged(parts)
        if isinstance(n.func, ast.Name) and n.func.id == 'defaultdict' and isinstance(n.args[0], ast.Name):
            n.args = [ast.Constant(value=self.factories[n.args[0].id])]
        return n


def form(tree):
    fs = {f.name: f.body[0].value.value for f in tree.body if isinstance(f, ast.FunctionDef) and not f.args.args
          and isinstance(f.body[0], ast.Return) and isinstance(f.body[0].value, ast.Constant)}
    return Form(fs).visit(tree)


def parts(tree, into, imported=None):
    """the functions, the attributes and methods of the classes, and the statements of a module"""
    for s in tree.body:
        if isinstance(s, ast.ClassDef) and (imported is None or s.name in imported):
            assert not (s.bases or s.keywords or s.decorator_list)
            for b in s.body:
                name = b.name if isinstance(b, ast.FunctionDef) else ast.unparse(b.targets[0])
                assert (s.name, name) not in into
                into[s.name, name] = ast.dump(b)
            into[s.name, '*'] = [b.name if isinstance(b, ast.FunctionDef) else '' for b in s.body].count('')
        elif isinstance(s, ast.FunctionDef) and s.name != 'def_val':
            assert s.name not in into
            into[s.name] = ast.dump(s)
        elif isinstance(s, ast.Assign):
            into.setdefault('statements', []).append(ast.dump(s))


def main():
    r = subprocess.run(['lake', 'env', 'lean', os.path.join(ROOT, 'tools/difftest/unparse_driver.txt')],
                       cwd=os.environ.get('LEAN', ROOT + '/lean'), stdout=subprocess.PIPE, stderr=subprocess.STDOUT, text=True)
    if r.stdout.strip():
        sys.exit(r.stdout[:3000])
    text = open('/tmp/unparsed.py').read()
    assert 'UNKNOWN' not in text.replace("'<UNKNOWN>'", '')
    got, want = {}, {}
    parts(form(ast.parse(text)), got)
    rec = ast.parse(open(REPO + '/record.py').read())
    names = [s.module.split('.')[-1] for s in rec.body if isinstance(s, ast.ImportFrom) and s.module.startswith('arinc424.definitions.')]
    for f in ['decoder.py', 'record.py', '__init__.py']:
        parts(form(ast.parse(open(f'{REPO}/{f}').read())), want)
    for n in names:
        parts(form(ast.parse(open(f'{REPO}/definitions/{n}.py').read())), want, {n})
    bad = [k for k in sorted(set(got) | set(want), key=str) if got.get(k) != want.get(k)]
    for k in bad[:20]:
        print('DIFFERENT', k, '\n  library:', str(want.get(k))[:1500], '\n  Lean:   ', str(got.get(k))[:1500])
    print(f'{len(want)} functions, methods and attributes, {len(want["statements"])} statements: {len(bad)} differ')
    sys.exit(bool(bad))


main()
