#!/usr/bin/env python3
"""Tests C119 - C125 against wrong programs: edits of the Python text of the library.

The library is copied to a scratch directory and edited there; tools/source.py writes the syntax trees of the edited text,
and the theorems about the source are built. Nothing of the library is run. A mutant is killed if a theorem fails (or the
text has a construct that tools/source.py does not know, which is reported apart).

usage: pymutate.py                 the edits in seeded/pymutants.py that are not in seeded/LOG.jsonl
       pymutate.py file[:every]    every n-th of all small edits of a file, e.g. decoder.py:20 definitions/Airport.py:5;
                                   results in /tmp/pym/results.jsonl
"""
import ast, json, os, re, shutil, subprocess, sys, time
ROOT = os.path.dirname(os.path.dirname(os.path.abspath(__file__)))
SRC, TMP = '/repo/src/arinc424', '/tmp/pym'
LOG = os.path.join(ROOT, 'seeded', 'LOG.jsonl')
DONE = TMP + '/results.jsonl'
HEAD = re.compile(r'^(?:@\[[^\]]*\]\s*)?(?:private )*(theorem|lemma|example|def|instance)\s+(\S+)')


def setup():
    os.makedirs(TMP, exist_ok=True)
    subprocess.run(f'rm -rf {TMP}/base; cp -a {ROOT}/lean {TMP}/base', shell=True, check=True)
    r = subprocess.run('lake build Verif.Props.SourceEnd', shell=True, cwd=TMP + '/base', stdout=subprocess.PIPE,
                       stderr=subprocess.STDOUT, text=True)
    assert r.returncode == 0, r.stdout[-1000:]


def run(file, text):
    """(verdict, names that fail)"""
    subprocess.run(f'rm -rf {TMP}/lib {TMP}/lean; cp -a {SRC} {TMP}/lib; cp -a {TMP}/base {TMP}/lean', shell=True, check=True)
    with open(f'{TMP}/lib/{file}', 'w') as f:
        f.write(text)
    r = subprocess.run(['python3', ROOT + '/tools/source.py', f'{TMP}/lean/Verif/Model'], env=dict(os.environ, SOURCE=TMP + '/lib'),
                       stdout=subprocess.PIPE, stderr=subprocess.STDOUT, text=True)
    if r.returncode:
        return 'refused', [r.stdout.strip().split('\n')[-1][:200]]
    if subprocess.run(f'diff -rq {TMP}/base/Verif/Model {TMP}/lean/Verif/Model', shell=True, stdout=subprocess.DEVNULL).returncode == 0:
        return 'same trees', []
    r = subprocess.run('timeout 2400 lake build Verif.Props.SourceEnd', shell=True, cwd=TMP + '/lean', stdout=subprocess.PIPE,
                       stderr=subprocess.STDOUT, text=True)
    if r.returncode == 0:
        return 'SURVIVED', []
    names = []
    for f, n in re.findall(r'^error: (Verif/\S+?\.lean):(\d+):\d+:', r.stdout, re.M):
        lines = open(f'{TMP}/lean/{f}').read().split('\n')
        i = int(n) - 1
        while i < len(lines) and not HEAD.match(lines[i]) and lines[i].startswith(('/--', 'omit', '@[')):
            i += 1
        while i >= 0 and not HEAD.match(lines[i]):
            i -= 1
        nm = HEAD.match(lines[i]).group(2) if i >= 0 else '?'
        if f + ' ' + nm not in names:
            names.append(f + ' ' + nm)
    return ('killed' if names else 'ERROR'), names or [r.stdout[-300:]]


def lost(names):
    """the property theorems whose proof uses one of these"""
    out = []
    for l in open('/tmp/mut/deps.txt'):
        t, ds = l.split(': ', 1)
        ds = {d.split('.')[-1] for d in ds.split()}
        if any(n.split(' ')[1].split('.')[-1] in ds | {t} for n in names):
            out.append(t)
    return sorted(out)


def small(file):
    """(line, what, text) of all small edits"""
    text = open(f'{SRC}/{file}').read()
    starts = [0]
    for l in text.encode().split(b'\n'):
        starts.append(starts[-1] + len(l) + 1)
    raw = text.encode()
    out = []
    def put(n, new):
        a, b = starts[n.lineno - 1] + n.col_offset, starts[n.end_lineno - 1] + n.end_col_offset
        if raw[a:b].decode() != new:
            out.append((n.lineno, raw[a:b].decode()[:60] + ' -> ' + new[:60], (raw[:a] + new.encode() + raw[b:]).decode()))
    tree = ast.parse(text)
    docs = {id(n.body[0].value) for n in ast.walk(tree) if isinstance(n, (ast.FunctionDef, ast.ClassDef, ast.Module))
            and n.body and isinstance(n.body[0], ast.Expr)}
    inf = {id(c) for n in ast.walk(tree) if isinstance(n, ast.JoinedStr) for c in ast.walk(n)}
    CMP = {ast.Eq: '!=', ast.NotEq: '==', ast.Gt: '>=', ast.GtE: '>', ast.In: 'not in', ast.NotIn: 'in'}
    for n in ast.walk(tree):
        if id(n) in docs or id(n) in inf:
            continue
        if isinstance(n, ast.Constant):
            if isinstance(n.value, bool):
                put(n, str(not n.value))
            elif isinstance(n.value, int):
                put(n, str(n.value + 1))
            elif isinstance(n.value, str) and n.value:
                put(n, repr(n.value[:-1] + ('Q' if n.value[-1] != 'Q' else 'R')))
        elif isinstance(n, ast.Compare) and len(n.ops) == 1 and type(n.ops[0]) in CMP:
            put(n, f'{ast.unparse(n.left)} {CMP[type(n.ops[0])]} {ast.unparse(n.comparators[0])}')
        elif isinstance(n, ast.BoolOp):
            op = ' and ' if isinstance(n.op, ast.Or) else ' or '
            put(n, op.join(ast.unparse(v) for v in n.values))
        elif isinstance(n, ast.UnaryOp) and isinstance(n.op, ast.Not):
            put(n, ast.unparse(n.operand))
        elif isinstance(n, ast.Attribute) and isinstance(n.value, ast.Name) and n.value.id == 'decoder' and n.attr.startswith('field_'):
            put(n, 'decoder.' + ('field_002' if n.attr != 'field_002' else 'field_003'))
        elif isinstance(n, ast.Call) and isinstance(n.func, ast.Attribute) and n.func.attr in ('strip', 'lstrip'):
            put(n, ast.unparse(n.func.value))
        elif isinstance(n, (ast.Assign, ast.AugAssign, ast.Expr)) and not isinstance(getattr(n, 'value', None), ast.Constant):
            put(n, 'pass')
    return sorted(out, key=lambda x: x[0])


def main():
    setup()
    if len(sys.argv) > 1:
        done = {(r['file'], r['line'], r['edit']) for r in map(json.loads, open(DONE))} if os.path.exists(DONE) else set()
        for a in sys.argv[1:]:
            file, _, every = a.partition(':')
            for line, what, text in small(file)[::int(every or 1)]:
                if (file, line, what) in done:
                    continue
                t = time.time()
                v, names = run(file, text)
                print(v, f'{file}:{line}', what.replace('\n', ' '), '|', names[:3], round(time.time() - t), flush=True)
                with open(DONE, 'a') as f:
                    f.write(json.dumps({'file': file, 'line': line, 'edit': what, 'verdict': v, 'broken': names}) + '\n')
        return
    ns = {}
    exec(open(os.path.join(ROOT, 'seeded', 'pymutants.py')).read(), ns)
    done = {json.loads(l).get('id') for l in open(LOG) if l.strip()}
    for m in ns['MUTANTS']:
        if m['id'] in done:
            continue
        text = open(f'{SRC}/{m["file"]}').read()
        assert text.count(m['old']) == 1, (m['id'], text.count(m['old']))
        t = time.time()
        v, names = run(m['file'], text.replace(m['old'], m['new']))
        failed = lost(names) if v == 'killed' else []
        print(m['id'], v, names[:3], failed[:8], round(time.time() - t), flush=True)
        with open(LOG, 'a') as f:
            f.write(json.dumps({'id': m['id'], 'definition': 'source of ' + m['file'] + ': ' + m['definition'], 'edit': m['edit'],
                                'claim_broken': m['claim'], 'theorems_failed': failed, 'broken_lemmas': names, 'verdict': v,
                                'theorems_tightened': []}, ensure_ascii=False) + '\n')


main()
