#!/usr/bin/env python3
"""Looks for gaps in the theorems with many small edits of the model.

Every edit of one place in the model (another number, another character in a text, another comparison, the
other connective, a dropped `strip`) is made in a scratch copy without the examples, and the copy is built. If
everything still builds, no theorem notices the edit: it is printed as SURVIVED and must be looked at. A
build that stops in the model itself says nothing.

usage: automutate.py file[:every] ...     e.g. Decoder.lean Layouts.lean:40 (every 40th edit of that file), ../Py/Utf8.lean
"""
import hashlib, json, os, re, subprocess, sys, time
ROOT = os.path.dirname(os.path.dirname(os.path.abspath(__file__)))
BASE, DST = '/tmp/auto/base', '/tmp/auto/lean'
DONE = '/tmp/auto/results.jsonl'

def strip_examples(text):
    lines, out, i = text.split('\n'), [], 0
    stop = re.compile(r'^(?:end\b|section\b|namespace\b|variable\b|omit\b|attribute\b|/-|open\b|set_option\b|@\[|'
                      r'(?:private |protected |noncomputable )*(?:theorem|lemma|example|def|abbrev|instance|structure|inductive)\b)')
    while i < len(lines):
        if lines[i].startswith('example'):
            k = len(out)
            while k and out[k - 1].strip() == '': k -= 1
            if k and out[k - 1].rstrip().endswith('-/'):
                k -= 1
                while not out[k].startswith('/-'): k -= 1
                if out[k].startswith('/--'): del out[k:]
            i += 1
            while i < len(lines) and not stop.match(lines[i]): i += 1
        else:
            out.append(lines[i]); i += 1
    return '\n'.join(out)

def setup():
    subprocess.run(f'rm -rf {BASE}; mkdir -p /tmp/auto; cp -a {ROOT}/lean {BASE}', shell=True, check=True)
    for d, _, fs in os.walk(BASE + '/Verif/Props'):
        for f in fs:
            if f.endswith('.lean'):
                p = os.path.join(d, f)
                s = open(p).read()
                open(p, 'w').write(strip_examples(s))
    r = subprocess.run('lake build 2>&1 | tail -30', shell=True, cwd=BASE, stdout=subprocess.PIPE, text=True)
    print(r.stdout[-1500:], flush=True)
    assert 'error' not in r.stdout

SWAPS = [(' ∨ ', ' ∧ '), (' ∧ ', ' ∨ '), (' && ', ' || '), (' || ', ' && '), (' > ', ' ≥ '), (' < ', ' ≤ '),
         (' ≥ ', ' > '), (' ≤ ', ' < '), (' ≠ ', ' = '), ('strip value', 'value'), ('= false', '= true'),
         ('!is', 'is'), (' == ', ' != '), ('lstripZeros value', 'value'), ('isAlnum', 'isAlpha'),
         ('isAlpha', 'isAlnum'), ('isNumeric', 'isDigit')]

def edits(path):
    text = open(path).read()
    masked = re.sub(r'/-.*?-/', lambda m: ' ' * len(m.group(0)), text, flags=re.S)
    lits = [(m.start(), m.end()) for m in re.finditer(r'py!"(?:\\.|[^"\\])*"', masked)]
    code = list(masked)
    for a, b in lits:
        for i in range(a, b): code[i] = '\0'
    code = ''.join(code)
    first = code.index('namespace')
    out = []
    for a, b in lits:
        body = text[a + 4:b - 1]
        if body == '': new = '~'
        elif body.endswith('\\"') or body.endswith('\\n'): new = body + '~'
        else: new = body[:-1] + '~'
        out.append((a, b, 'py!"' + new + '"'))
    for m in re.finditer(r'(?<![\w.\'])\d+(?![\w.])', code):
        out.append((m.start(), m.end(), str(int(m.group(0)) + 1)))
    for old, new in SWAPS:
        for m in re.finditer(re.escape(old), code):
            out.append((m.start(), m.end(), new))
    for m in re.finditer(r'\bif (.*?) = ', code):
        out.append((m.end() - 3, m.end(), ' ≠ '))
    return text, sorted(e for e in out if e[0] > first)

# the check of the application type (record.py:147-157) never has an effect: the test at line 151 is never true
DEAD = {'Record.lean': (80, 116)}

def build():
    p = subprocess.Popen('lake build 2>&1', shell=True, cwd=DST, stdout=subprocess.PIPE, text=True, start_new_session=True)
    bad = None
    for l in p.stdout:
        m = re.match(r'error: (Verif/\S+?\.lean):(\d+)', l)
        if m:
            bad = (m.group(1), int(m.group(2)))
            break
        if l.startswith('error: ') and not bad and 'build failed' in l:
            bad = ('?', 0)
            break
    if bad:
        import signal
        try: os.killpg(p.pid, signal.SIGKILL)
        except ProcessLookupError: pass
    p.wait()
    return bad

def name_at(f, n):
    lines = open(os.path.join(DST, f)).read().split('\n')
    for i in range(min(n, len(lines)) - 1, -1, -1):
        m = re.match(r'^(?:@\[[^\]]*\]\s*)?(?:private |protected |noncomputable )*(?:theorem|lemma|def|abbrev|instance|structure|inductive)\s+(\S+)', lines[i])
        if m: return m.group(1)
    return '?'

def main():
    if '--setup' in sys.argv or not os.path.isdir(BASE): setup()
    done = set()
    if os.path.exists(DONE): done = {json.loads(l)['key'] for l in open(DONE)}
    for a in sys.argv[1:]:
        if a.startswith('--'): continue
        f, _, every = a.partition(':')
        path = f'{BASE}/Verif/Model/{f}'
        text, es = edits(path)
        for n, (i, j, new) in enumerate(es):
            if every and n % int(every): continue
            ln = text.count('\n', 0, i) + 1
            line = text.split('\n')[ln - 1].strip()
            if f in DEAD and DEAD[f][0] < ln <= DEAD[f][1]: continue
            key = hashlib.md5(f'{f}|{line}|{text[max(0,i-60):j+20]}|{new}'.encode()).hexdigest()[:12]
            if key in done: continue
            t = time.time()
            subprocess.run(f'rm -rf {DST}; cp -a {BASE} {DST}', shell=True, check=True)
            open(f'{DST}/Verif/Model/{f}', 'w').write(text[:i] + new + text[j:])
            bad = build()
            where = name_at(*bad) if bad and bad[0] != '?' else ''
            verdict = 'SURVIVED' if not bad else ('invalid' if bad[0].startswith(('Verif/Model', 'Verif/Py')) or bad[0] == '?' else 'killed')
            rec = {'key': key, 'file': f, 'line': ln, 'text': line, 'old': text[i:j], 'new': new, 'verdict': verdict,
                   'at': f'{bad[0]}:{where}' if bad else '', 'secs': round(time.time() - t)}
            print(verdict, f'{f}:{ln}', repr(text[i:j]), '->', repr(new), '|', line[:90], '|', rec['at'], rec['secs'], flush=True)
            with open(DONE, 'a') as g: g.write(json.dumps(rec, ensure_ascii=False) + '\n')

main()
