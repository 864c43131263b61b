#!/usr/bin/env python3
"""Tests lean/Verif/Model/Lang.lean against CPython: random small programs in the part of Python in which the library is
written are run by CPython and by the interpreter in Lean, with the translation of tools/source.py, and the results,
exceptions, prints and variables are compared. Nothing of the library is run. Programs that are outside of what is modelled
("stuck"), or refused by tools/source.py, are counted. Usage: lang.py [number of programs] [seed]
"""
import contextlib, io, json, os, random, subprocess, sys, string
from collections import defaultdict
HERE = os.path.dirname(os.path.abspath(__file__))
ROOT = os.path.dirname(os.path.dirname(HERE))
TMP = '/tmp/langcheck'
os.makedirs(TMP, exist_ok=True)
os.environ['SOURCE'] = TMP
sys.path.insert(0, ROOT + '/tools')
sys.argv, argv = sys.argv[:1], sys.argv
import source, ast  # noqa: E402

N = int(argv[1]) if len(argv) > 1 else 400
R = random.Random(int(argv[2]) if len(argv) > 2 else 1)
TEXTS = ['', ' ', 'A', 'S', 'T', '0', '1', '12', '007', ' 7 ', 'AB', 'ABC', 'N', '1.5', '-3', 'x y', 'Z', '00', '12A', '+4', "it's", '5E2']


def pick(*xs):
    return R.choice(xs)


class Gen:
    """one program: helper functions, a class with methods, and main(a, b)"""

    def __init__(self):
        self.funcs, self.indent = [], 0

    def text(self):
        return repr(R.choice(TEXTS))

    # expressions by type; `v` is a dict from variable to type
    def names(self, v, t):
        return [x for x, u in v.items() if u == t]

    def s(self, v, d):
        c = self.names(v, 's')
        if d == 0:
            return R.choice(c) if c and R.random() < .7 else self.text()
        k = R.randrange(15)
        if k < 2:
            return self.s(v, 0)
        if k == 2:
            return f'{self.s(v, d - 1)} + {self.s(v, d - 1)}'
        if k == 3:
            return f'({self.s(v, d - 1)}).strip()'
        if k == 4:
            return f"({self.s(v, d - 1)}).lstrip('0')"
        if k == 5:
            return f"({self.s(v, d - 1)} + 'abc')[{R.randrange(3)}]" if R.random() < .8 else f'({self.s(v, d - 1)})[{R.randrange(3)}]'
        if k == 6:
            a, b = R.randrange(3), R.randrange(4)
            return f'({self.s(v, d - 1)})[' + pick(f'{a}:{b}', f'{a}:', f':{b}', f'-{a + 1}:') + ']'
        if k == 7:
            x, y = self.atom(v), self.atom(v)
            return "f'<{%s}|{%s}>'" % (x, y)
        if k == 8:
            return "'[{}]{}'.format(%s, %s)" % (self.s(v, d - 1), self.i(v, d - 1))
        if k == 9:
            return "'{:03}'.format(%s)" % self.i(v, d - 1)
        if k == 10:
            return f'({self.s(v, d - 1)} if {self.b(v, d - 1)} else {self.s(v, d - 1)})'
        if k == 11 and self.names(v, 'd'):
            return f"{R.choice(self.names(v, 'd'))}[{self.s(v, d - 1)}]" if R.random() < .7 else 'json.dumps(d)'
        if k == 12 and self.names(v, 'o'):
            o = R.choice(self.names(v, 'o'))
            return pick(f'{o}.tag', f'{o}.kind', f'{o}.kind', f'{o}.late' if R.random() < .3 else f'{o}.tag', f'{o}.get({self.s(v, d - 1)})', f'{o}.get()', f'{o}.push({self.s(v, d - 1)})')
        if k == 13 and self.funcs:
            f, ps = R.choice(self.funcs)
            return f'{f}(' + ', '.join(self.s(v, d - 1) if p == 's' else self.i(v, d - 1) for p in ps) + ')'
        if k == 14:
            return "'{:.%df}'.format(float(%s) / %d)" % (pick(1, 2), self.number(v, d), pick(10, 100))
        return f'str({self.i(v, d - 1)})'

    def number(self, v, d):
        return repr(pick('12', ' 7 ', '-3', '007', '+4')) if R.random() < .8 else self.s(v, d - 1)

    def atom(self, v):
        c = [x for x, u in v.items() if u in 'si']
        return R.choice(c) if c else '1'

    def i(self, v, d):
        c = self.names(v, 'i')
        if d == 0:
            return R.choice(c) if c and R.random() < .6 else str(R.randrange(-2, 12))
        k = R.randrange(8)
        if k < 2:
            return self.i(v, 0)
        if k == 2:
            return f'len({self.s(v, d - 1)})'
        if k == 3:
            return f'int({self.number(v, d)})'
        if k < 6:
            return f"({self.i(v, d - 1)} {pick('+', '-', '*')} {self.i(v, d - 1)})"
        if k == 6:
            return f"string.ascii_uppercase.index({pick(repr('A'), repr('M'), repr('z'), self.s(v, d - 1) + '[0]')})"
        return f'({self.i(v, d - 1)} if {self.b(v, d - 1)} else {self.i(v, d - 1)})'

    def b(self, v, d):
        if d == 0:
            return pick('True', 'False', f"{self.s(v, 0)} == {self.s(v, 0)}", f'{self.i(v, 0)} > {self.i(v, 0)}')
        k = R.randrange(16)
        if k == 0:
            return f"({self.s(v, d - 1)}) {pick('==', '!=')} ({self.s(v, d - 1)})"
        if k == 1:
            return f"({self.i(v, d - 1)}) {pick('==', '!=', '>', '>=')} ({self.i(v, d - 1)})"
        if k == 2:
            return f"({self.s(v, d - 1)}) {pick('in', 'not in')} ({self.s(v, d - 1)})"
        if k == 3:
            return f"({self.s(v, d - 1)}) {pick('in', 'not in')} [{self.s(v, d - 1)}, {self.s(v, d - 1)}]"
        if k == 4:
            return f'({self.b(v, d - 1)}) and ({self.b(v, d - 1)})'
        if k == 5:
            return f'({self.b(v, d - 1)}) or ({self.b(v, d - 1)})'
        if k == 6:
            return f'not ({self.b(v, d - 1)})'
        if k == 7:
            return f"({self.s(v, d - 1)}).{pick('isnumeric', 'isalnum', 'isalpha')}()"
        if k == 8:
            return f"({self.b(v, d - 1)}) is {pick('True', 'False')}"
        if k == 9:
            return f"({self.s(v, d - 1)}).startswith(('S', 'T'))"
        if k == 10:
            return f"({self.s(v, d - 1)}).endswith('A')"
        if k == 11:
            return f"isinstance({self.atom(v)}, {pick('str', 'list')})"
        if k == 12 and self.names(v, 'd'):
            return f"{self.s(v, d - 1)} in {R.choice(self.names(v, 'd'))}"
        if k == 13 and self.names(v, 'o'):
            return f"hasattr({R.choice(self.names(v, 'o'))}, {pick(repr('tag'), repr('late'), repr('kind'), repr('no'))})"
        return pick(f'({self.s(v, d - 1)})', f'({self.i(v, d - 1)})') if k > 13 else self.b(v, 0)

    # statements
    def block(self, v, n, d, ind, loop):
        out = []
        for _ in range(n):
            out += self.stmt(v, d, ind, loop)
        return out or [ind + 'pass']

    def stmt(self, v, d, ind, loop):
        k = R.randrange(18)
        x = R.choice(self.names(v, 's'))
        if k < 2:
            return [f'{ind}{x} = {self.s(v, 2)}']
        if k == 2:
            return [f'{ind}{R.choice(self.names(v, "i"))} = {self.i(v, 2)}']
        if k == 3:
            return [f'{ind}{x} += {self.s(v, 2)}'] if R.random() < .5 else [f'{ind}{R.choice(self.names(v, "i"))} += {self.i(v, 1)}']
        if k == 4:
            return [f'{ind}print({self.s(v, 2)})']
        if k == 5 and self.names(v, 'w'):
            return [f"{ind}{R.choice(self.names(v, 'w'))}.write({self.s(v, 2)})"]
        if k == 6 and self.names(v, 'd'):
            return [f"{ind}{R.choice(self.names(v, 'd'))}[{self.s(v, 1)}] = {self.s(v, 2)}"]
        if k == 7 and self.names(v, 'o'):
            return [f"{ind}{R.choice(self.names(v, 'o'))}.push({self.s(v, 2)})"]
        if k == 8:
            return [f'{ind}return {pick(self.s(v, 2), self.i(v, 2), self.b(v, 2) if False else self.s(v, 2))}'] if R.random() < .4 else [f'{ind}pass']
        if k == 9 and R.random() < .5:
            return [f'{ind}raise ValueError({self.s(v, 1)}' + (f', {self.s(v, 1)})' if R.random() < .5 else ')')]
        if loop and k == 10:
            return [ind + 'continue']
        if d == 0:
            return [f'{ind}print({self.atom(v)})']
        if k <= 12:
            out = [f'{ind}if {self.b(v, 2)}:'] + self.block(v, R.randrange(1, 3), d - 1, ind + '  ', loop)
            if R.random() < .4:
                out += [f'{ind}elif {self.b(v, 2)}:'] + self.block(v, 1, d - 1, ind + '  ', loop)
            if R.random() < .6:
                out += [f'{ind}else:'] + self.block(v, R.randrange(1, 3), d - 1, ind + '  ', loop)
            return out
        if k == 13:
            t = pick('s', 'i')
            out = [f'{ind}match {self.s(v, 1) if t == "s" else self.i(v, 1)}:']
            for c in R.sample(TEXTS if t == 's' else list(range(0, 8)), 3):
                out += [f'{ind}  case {c!r}:'] + self.block(v, 1, d - 1, ind + '    ', loop)
            if R.random() < .6:
                out += [f'{ind}  case _:'] + self.block(v, 1, d - 1, ind + '    ', loop)
            return out
        if k in (14, 17):
            return [ind + 'try:'] + self.raising(v, x, ind + '  ') + self.block(v, 1, d - 1, ind + '  ', loop) + [ind + 'except (ValueError, IndexError) as e:',
                    ind + "  print(f'caught: {e}')"] + self.block(v, 1, d - 1, ind + '  ', loop)
        if k == 15:
            y = f'y{len(v)}'
            w = dict(v)
            w[y] = 's'
            return [f'{ind}for {y} in [{self.s(v, 1)}, {self.s(v, 1)}, {self.s(v, 1)}]:'] + self.block(w, 2, d - 1, ind + '  ', True)
        return [f'{ind}{x} = {self.s(v, 3)}']

    def raising(self, v, x, ind):
        """a change, then something that may raise"""
        risky = [f"{x} = 'AB'[{R.randrange(4)}]", f'n = int({self.s(v, 0)})', f'{x} = {self.s(v, 2)}']
        for f, ps in self.funcs:
            risky.append(f'{x} = {f}(' + ', '.join(self.s(v, 1) if p == 's' else self.i(v, 1) for p in ps) + ')')
        if self.names(v, 'o'):
            risky.append(f"{x} = {R.choice(self.names(v, 'o'))}.late")
        return [f'{ind}{x} = {self.s(v, 1)}', ind + R.choice(risky)]

    def body(self, v, n, first):
        v = dict(v)
        out = [f'  t = {self.text()}', f'  n = {R.randrange(5)}']
        v.update(t='s', n='i')
        if R.random() < .6:
            out.append('  d = defaultdict(def_val)')
            v['d'] = 'd'
        if R.random() < .5:
            out.append('  w = io.StringIO()')
            v['w'] = 'w'
        if first:
            out.append(f'  o = Thing({self.s(v, 0)})')
            v['o'] = 'o'
            out.append(f'  o.push({self.s(v, 0)})')
        out += self.block(v, n, 2, '  ', False)
        if first:
            out += [f'  t = o.push({self.s(v, 1)}) + o.push({self.s(v, 1)})', '  print(o.tag)', '  print(o.kind)']
        if 'd' in v and R.random() < .5:
            out.append('  print(json.dumps(d))')
        out.append(f'  return {self.s(v, 2)}' if 'w' not in v or R.random() < .5 else '  return w.getvalue()')
        return out

    def program(self):
        out = ['def def_val():', '  return "<UNKNOWN>"', '', 'class Thing():', f'  kind = {self.text()}', '',
               '  def __init__(self, tag):', '    self.tag = tag', '',
               '  def push(self, x):'] + self.block({'x': 's', 'n': 'i'}, 0, 0, '    ', False)[:0]
        v = {'x': 's'}
        out += [f'    self.tag = self.tag + {self.s(v, 1)}', f'    if {self.b(v, 1)}:', f'      self.late = {self.s(v, 1)}',
                f'    x = {self.s(v, 1)}', f'    if {self.b(v, 1)}:', f'      self.kind = {self.s(v, 1)}', '    return self.tag', '',
                "  def get(self, x='q'):", f'    return self.tag + {self.s(v, 1)}', '']
        for f in ('h1', 'h2'):
            ps = [pick('s', 'i') for _ in range(R.randrange(1, 3))]
            out += [f'def {f}(' + ', '.join(f'p{k}' for k in range(len(ps))) + '):']
            out += self.body({f'p{k}': p for k, p in enumerate(ps)}, R.randrange(1, 4), False) + ['']
            self.funcs.append((f, ps))
        out += ['def main(a, b):'] + self.body({'a': 's', 'b': 's'}, R.randrange(3, 8), True)
        return '\n'.join(out) + '\n'


def codes(s):
    return '.'.join(str(ord(c)) for c in s)


def cpython(text, a, b):
    ns = {'io': io, 'json': json, 'string': string, 'defaultdict': defaultdict}
    out = []
    ns['print'] = lambda *xs: out.append(' '.join(map(str, xs)))
    try:
        exec(compile(text, 'p', 'exec'), ns)
        r = ns['main'](a, b)
        if isinstance(r, bool):
            res = 'bool ' + str(r).lower()
        elif isinstance(r, str):
            res = 'str ' + codes(r)
        elif isinstance(r, int):
            res = 'int ' + str(r)
        else:
            res = '?' + repr(r)
    except UnboundLocalError:
        return None
    except TypeError:
        return None
    except ValueError as e:
        res = 'value ' + ','.join(codes(str(x)) for x in e.args)
    except IndexError:
        res = 'index'
    except AttributeError:
        res = 'attribute'
    return res + '|' + ','.join(map(codes, out))


LEAN = '''import Verif.Model.Lang
import Verif.Py.Cpython311
import Verif.Py.Printable
open Py Arinc Arinc.Lang
attribute [local instance] Py.Tables.cpython311
def codes (s : Str) : String := ".".intercalate (s.map toString)
def shown : Except Err Val → String
  | .ok (.bool b) => "bool " ++ toString b
  | .ok (.str s) => "str " ++ codes s
  | .ok (.int i) => "int " ++ toString i
  | .ok _ => "?"
  | .error .stuck => "stuck"
  | .error (.fault (.value as)) => "value " ++ ",".intercalate (as.map codes)
  | .error (.fault .exit) => "exit"
  | .error (.fault (.other .indexError)) => "index"
  | .error (.fault (.other .attributeError)) => "attribute"
  | .error (.fault (.other _)) => "other"
def sc : Screen := ⟨fun s => s.length, Py.Tables.printable311, false⟩
def go (P : Prog) (a b : Str) : String :=
  let r := (P.env sc 12).call (py!"main") [.str a, .str b] ⟨[], [], [], false⟩
  shown r.1 ++ "|" ++ ",".intercalate (r.2.out.map codes)
'''


def main():
    progs, refused = [], 0
    while len(progs) < N:
        g = Gen()
        text = g.program()
        a, b = R.choice(TEXTS), R.choice(TEXTS)
        want = cpython(text, a, b)
        if want is None:
            continue
        open(TMP + '/p.py', 'w').write(text)
        m = source.Module('p.py')
        try:
            for f in ast.walk(m.tree):
                if isinstance(f, ast.FunctionDef):
                    m.func(f)
        except AssertionError:
            refused += 1
            continue
        progs.append((text, a, b, want, m))
    print(refused, 'programs refused by tools/source.py')
    done = stuck = bad = 0
    kinds = defaultdict(int)
    for k in range(0, N, 50):
        o = LEAN
        for n, (text, a, b, want, m) in enumerate(progs[k:k + 50]):
            o += f'namespace P{n}\n'
            fs = [f for f in m.tree.body if isinstance(f, ast.FunctionDef) and f.name != 'def_val']
            for f in fs:
                o += f'def {f.name} : Func := {m.func(f)}\n'
            c, = [c for c in m.tree.body if isinstance(c, ast.ClassDef)]
            o += source.klass(m, c)
            o += 'def prog : Prog := ⟨[%s], [(py!"Thing", Thing)]⟩\n' % ', '.join(f'(py!"{f.name}", {f.name})' for f in fs)
            o += f'end P{n}\n#eval go P{n}.prog ({source.lit(a)}) ({source.lit(b)})\n'
        open(TMP + '/T.lean', 'w').write(o)
        r = subprocess.run(['lake', 'env', 'lean', TMP + '/T.lean'], cwd=os.environ.get('LEAN', ROOT + '/lean'), stdout=subprocess.PIPE, stderr=subprocess.STDOUT, text=True)
        lines = [l for l in r.stdout.split('\n') if l.startswith('"')]
        if len(lines) != len(progs[k:k + 50]):
            print(r.stdout[:3000])
            sys.exit(1)
        for l, (text, a, b, want, m) in zip(lines, progs[k:k + 50]):
            got = json.loads(l)
            if got.startswith('stuck'):
                stuck += 1
                if os.environ.get('SHOW'):
                    print('STUCK', want[:60])
            elif got != want:
                bad += 1
                print('DIFFERENT', repr(a), repr(b), '\n' + text, '\nCPython:', want, '\nLean:   ', got)
            else:
                done += 1
                kinds[got.split(' ')[0].split('|')[0]] += 1
        print(f'{k + len(lines)}: {done} agree, {stuck} outside, {bad} differ', dict(kinds), flush=True)


main()
