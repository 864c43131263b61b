#!/usr/bin/env python3
"""Tests the theorems against wrong programs.

For each entry of seeded/mutants.py not yet in seeded/LOG.jsonl: copy the Lean project to a scratch
directory, apply the edit to the model, and build. A declaration outside the model that fails has its
proof replaced by `sorry` (an example is dropped), and the build goes on until the claims the edit breaks
have all lost a theorem: one that fails itself or whose proof uses a lemma that fails (the uses are
those tools/deps.lean.txt printed). With --full the build goes on to the end and `#print axioms` tells which
theorems no longer hold: those that depend on sorryAx.

usage: mutate.py [--full] [name ...]        (writes one line per mutant to seeded/LOG.jsonl)
"""
import json, os, re, subprocess, sys, time
ROOT = os.path.dirname(os.path.dirname(os.path.abspath(__file__)))
SRC = os.path.join(ROOT, 'lean')
DST = '/tmp/mut/lean'
DEPS = '/tmp/mut/deps.txt'
LOG = os.path.join(ROOT, 'seeded', 'LOG.jsonl')
HEAD = re.compile(r'^(?:@\[[^\]]*\]\s*)?(?:private |protected |noncomputable )*'
                  r'(theorem|lemma|example|def|abbrev|instance|structure|inductive)\b')
BREAK = re.compile(r'^(?:end\b|section\b|namespace\b|variable\b|omit\b|attribute\b|/-|open\b|set_option\b|@\[|'
                   r'(?:private |protected |noncomputable )*(?:theorem|lemma|example|def|abbrev|instance|structure|inductive)\b)')

def sh(cmd, timeout=3000):
    try:
        p = subprocess.run(cmd, shell=True, stdout=subprocess.PIPE, stderr=subprocess.STDOUT, text=True,
                           timeout=timeout, cwd=DST if os.path.isdir(DST) else '/')
        return p.returncode, p.stdout
    except subprocess.TimeoutExpired as e:
        subprocess.run('pkill -f /tmp/mut', shell=True)
        return 124, (e.stdout or b'').decode() if isinstance(e.stdout, bytes) else (e.stdout or '')

def decl_at(lines, n):
    """(start, end, kind) of the declaration around line index n"""
    i = n
    if lines[n].startswith(('/--', 'omit', '@[')):   # an error of the whole declaration is reported at its first line
        while i < len(lines) and not HEAD.match(lines[i]):
            i += 1
    while i >= 0 and not HEAD.match(lines[i]):
        i -= 1
    if i < 0:
        return None
    j = i + 1
    while j < len(lines) and not BREAK.match(lines[j]):
        j += 1
    return i, j, HEAD.match(lines[i]).group(1)

def sorried(text):
    """replace the proof in the text of a theorem"""
    depth, quoted = 0, False
    for k in range(len(text) - 1):
        c = text[k]
        if c == '"' and text[k - 1] != '\\': quoted = not quoted
        if quoted: continue
        if c in '([{⟨': depth += 1
        if c in ')]}⟩': depth -= 1
        if depth == 0 and text.startswith(':=', k):
            return text[:k] + ':= by sorry\n\n'
        if depth == 0 and text.startswith('\n  | ', k):
            return text[:k] + ' := by sorry\n\n'
    return None

def lost(broken):
    """the property theorems whose proof uses one of these"""
    out = []
    for l in open(DEPS):
        t, ds = l.split(': ', 1)
        ds = ds.split()
        if any(d == b or d.endswith('.' + b) for b in broken for d in ds):
            out.append(t)
    return sorted(out)

def covered(expect, failed):
    return all(any(c in t.split('_') for t in failed) for c in expect)

def run(m, full):
    os.makedirs('/tmp/mut', exist_ok=True)
    copy = f'rm -rf {DST}; cp -a {SRC} {DST}'
    subprocess.run(f'({copy}) || (sleep 60; {copy})', shell=True, check=True)
    path = os.path.join(DST, 'Verif', m['file'])
    s = open(path).read()
    n = s.count(m['old'])
    if n != m.get('count', 1):
        return None, f'{n} occurrences of the text to edit'
    s2 = s.replace(m['old'], m['new'])
    open(path, 'w').write(s2)
    lemmas, examples = [], 0
    for it in range(25):
        rc, out = sh('lake build 2>&1')
        if rc == 0:
            break
        if rc == 124:
            return None, 'timeout'
        errs = {}
        for f, ln in re.findall(r'^error: (Verif/\S+?\.lean):(\d+):\d+:', out, re.M):
            errs.setdefault(f, set()).add(int(ln) - 1)
        if not errs:
            return None, 'build failed: ' + out[-600:]
        for f, lns in errs.items():
            if f.startswith('Verif/Model') or f.startswith('Verif/Py'):
                # sanity lemmas kept with the model
                pass
            p = os.path.join(DST, f)
            lines = open(p).read().split('\n')
            spans = {}
            for ln in lns:
                d = decl_at(lines, ln)
                if d is None:
                    return None, f'{f}:{ln} no declaration'
                spans[d[0]] = d
            for i in sorted(spans, reverse=True):
                a, b, kind = spans[i]
                text = '\n'.join(lines[a:b])
                if kind == 'example':
                    new, examples = ['example : True := trivial', ''], examples + 1
                elif kind in ('theorem', 'lemma'):
                    nm = re.search(r'(?:theorem|lemma)\s+(\S+)', text).group(1)
                    t = sorried(text)
                    if t is None or 'by sorry' in text:
                        return None, f'{f}: cannot drop the proof of {nm}: ' + out[-600:]
                    lemmas.append(nm)
                    new = t.split('\n')
                else:
                    return None, f'{f}: {text[:80]} fails: ' + out[-600:]
                lines[a:b] = new
            open(p, 'w').write('\n'.join(lines))
        if not full and m['expect'] and covered(m['expect'], lost(lemmas)):
            return {'lemmas': lemmas, 'examples': examples, 'failed': lost(lemmas)}, None
    else:
        return None, 'too many rounds'
    if not full:
        return {'lemmas': lemmas, 'examples': examples, 'failed': lost(lemmas)}, None
    names = [t for c in json.load(open(os.path.join(ROOT, 'MANIFEST.json')))['claims'] for t in c['theorems']]
    names = sorted(set(names))
    open(os.path.join(DST, 'ax.lean'), 'w').write('import Verif\n' + ''.join(f'#print axioms {n}\n' for n in names))
    rc, out = sh('lake env lean ax.lean')
    failed = []
    for blk in re.findall(r"'([^']+)' depends on axioms: \[([^\]]*)\]", out):
        if 'sorryAx' in blk[1]:
            failed.append(blk[0].split('.')[-1])
    return {'lemmas': lemmas, 'examples': examples, 'failed': sorted(failed)}, None

def main():
    ns = {}
    exec(open(os.path.join(ROOT, 'seeded', 'mutants.py')).read(), ns)
    done = set()
    if os.path.exists(LOG):
        done = {json.loads(l).get('id') for l in open(LOG) if l.strip()}
    full = '--full' in sys.argv
    args = [a for a in sys.argv[1:] if a != '--full']
    for m in ns['MUTANTS']:
        if args and m['id'] not in args:
            continue
        if not args and m['id'] in done:
            continue
        t = time.time()
        r, err = run(m, full)
        if err:
            print(m['id'], 'ERROR', err, flush=True)
            continue
        verdict = 'killed' if covered(m['expect'], r['failed']) else 'SURVIVED'
        print(m['id'], verdict, 'expected', m['expect'], 'failed', len(r['failed']), r['failed'][:6], 'lemmas', r['lemmas'],
              'examples', r['examples'], round(time.time() - t), 's', flush=True)
        rec = {'id': m['id'], 'definition': m['definition'], 'edit': m['edit'], 'claim_broken': m['claim'],
               'claims': m['expect'], 'theorems_failed': r['failed'], 'examples_failed': r['examples'],
               'broken_lemmas': r['lemmas'], 'verdict': verdict, 'theorems_tightened': m.get('tightened', [])}
        with open(LOG, 'a') as f:
            f.write(json.dumps(rec, ensure_ascii=False) + '\n')

main()
